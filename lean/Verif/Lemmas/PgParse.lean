import Verif.Lemmas.Pg
import Verif.Lemmas.Lex
/-
The functions of /repo/edlisp/parser/linebased.go as they are written in Go compute what Model/Parser says.
-/
set_option linter.unusedSectionVars false
namespace Texted
variable [Ext] {n d : Nat} {w : PgW}

theorem pg_parseToken (t : Bytes) : pgRun n (d + 1) .parseToken [.str t] w =
    (match parseToken t with
    | .ok v => .ret [.val v, .nil] w
    | .error e => .ret [.nil, .err e] w) := by
  rw [pgRun_succ _ _ _ _ _ _ rfl]
  simp only [PgFn.body, pgParseToken]
  unfold parseToken
  cases hq : hasPrefix t (b! "\"") && hasSuffix t (b! "\"") with
  | true =>
    by_cases hl : t.length < 2
    · have hd : decide ((t.length : Int) < 2) = true := by simp; omega
      pg [hq, hd, hl, List.append_nil]
    · have hd : decide ((t.length : Int) < 2) = false := by simp; omega
      cases hu : unquote t with
      | some s => pg [hq, hd, hu, pgUnquoted, hl]
      | none => pg [hq, hd, hu, pgUnquoted, hl, List.append_nil, List.append_assoc]; rfl
  | false =>
    cases hf : parseFloat t with
    | some x => pg [hq, hf, pgNumber, Bool.false_eq_true]
    | none => pg [hq, hf, pgNumber, Bool.false_eq_true]

/-! ### The lexers -/

/-- The variables of `tokenize` (`xs` is `tokens`) and `splitOnSemicolons` (`parts`) hold what the model's record says. -/
structure Lexed (xs : PgVar) (x : Lex) (st : PgSt) : Prop where
  parts : st.vars xs = .strs (x.parts.map encodeAll)
  current : st.vars .current = .str (encodeAll x.current)
  inQuotes : st.vars .inQuotes = .bool x.inQuotes
  escapeNext : st.vars .escapeNext = .bool x.escapeNext

theorem encodeAll_snoc (cs : List Char) (c : Char) : encodeAll (cs ++ [c]) = encodeAll cs ++ encodeRune c := by
  rw [encodeAll_append]; simp [encodeAll]

theorem encodeAll_single (c : Char) : encodeAll [c] = encodeRune c := by simp [encodeAll]

theorem current_nonempty (cs : List Char) : decide ((0 : Int) < ((encodeAll cs).length : Int)) = !decide (cs = []) := by
  by_cases h : cs = []
  · subst h; rfl
  · have : encodeAll cs ≠ [] := fun e => h (encodeAll_eq_nil.mp e)
    have := List.length_pos_iff.mpr this
    simp [h]; omega

/-- The body of the loop of `tokenize` (/repo/edlisp/parser/linebased.go:165-201). -/
def tokenizeBody : PgS := match pgTokenize with
  | .seq _ (.seq _ (.seq _ (.seq _ (.seq (.range _ _ _ b) _)))) => b
  | _ => .skip

theorem token_round (w : PgW) (call : PgFn → List PgV → PgW → PgOut) (x : Lex) (r : Char) (k : Nat) (st : PgSt) (h : Lexed .tokens x st ∧ st.w = w) :
    ∃ st', (tokenizeBody.exec n call ((st.set .blank (.int k)).set .r (.rune r)) = .next st' ∨
      tokenizeBody.exec n call ((st.set .blank (.int k)).set .r (.rune r)) = .cont st') ∧ Lexed .tokens (tokenStep x r) st' ∧ st'.w = w := by
  obtain ⟨h, hw⟩ := h
  simp only [tokenizeBody, pgTokenize]
  obtain ⟨h₁, h₂, h₃, h₄⟩ := h
  unfold tokenStep
  cases he : x.escapeNext with
  | true =>
    rw [he] at h₄
    pg [h₁, h₂, h₃, h₄]
    exact ⟨_, .inr rfl, ⟨by pg [h₁]; rfl, by pg []; rw [Lex.write, encodeAll_snoc], by pg [h₃]; rfl, by pg []⟩, hw⟩
  | false =>
    rw [he] at h₄
    by_cases hr : r = '\\'
    · subst hr
      cases hq : x.inQuotes with
      | true =>
        rw [hq] at h₃
        pg [h₁, h₂, h₃, h₄, Bool.false_eq_true]
        exact ⟨_, .inl rfl, ⟨by pg [h₁]; rfl, by pg []; rw [Lex.write, encodeAll_snoc], by pg [h₃]; exact congrArg _ hq.symm, by pg []⟩, hw⟩
      | false =>
        rw [hq] at h₃
        pg [h₁, h₂, h₃, h₄, Bool.false_eq_true]
        exact ⟨_, .inl rfl, ⟨by pg [h₁]; rfl, by pg []; rw [Lex.write, encodeAll_snoc], by pg [h₃]; exact congrArg _ hq.symm, by pg [h₄]⟩, hw⟩
    · by_cases hr' : r = '"'
      · subst hr'
        pg [h₁, h₂, h₃, h₄, Bool.false_eq_true, hr]
        exact ⟨_, .inl rfl, ⟨by pg [h₁]; rfl, by pg []; rw [Lex.write, encodeAll_snoc], by pg [h₃], by pg [h₄]; exact congrArg _ he.symm⟩, hw⟩
      · have hwrite : ∀ b : Bool, x.inQuotes = b → Lexed .tokens (x.write r) (((st.set .blank (.int k)).set .r (.rune r)).set .current (.str (encodeAll x.current ++ encodeRune r))) := by
          intro b _
          exact ⟨by pg [h₁]; rfl, by pg []; rw [Lex.write, encodeAll_snoc], by pg [h₃]; rfl, by pg [h₄]; exact congrArg _ he.symm⟩
        by_cases hp : r = '(' ∨ r = ')'
        · have hp' : (decide (r = '(') || decide (r = ')')) = true := by simpa using hp
          cases hq : x.inQuotes with
          | true =>
            rw [hq] at h₃
            pg [h₁, h₂, h₃, h₄, Bool.false_eq_true, hr, hr', hp, hp']
            exact ⟨_, .inl rfl, hwrite _ hq, hw⟩
          | false =>
            rw [hq] at h₃
            by_cases hc : x.current = []
            · pg [h₁, h₂, h₃, h₄, Bool.false_eq_true, hr, hr', hp, hp', current_nonempty, hc, Lex.flushNonempty]
              exact ⟨_, .inl rfl, ⟨by pg [h₁, List.map_append, List.map_cons, List.map_nil, encodeAll_single], by pg [h₂, hc], by pg [h₃]; exact congrArg _ hq.symm, by pg [h₄]; exact congrArg _ he.symm⟩, hw⟩
            · pg [h₁, h₂, h₃, h₄, Bool.false_eq_true, hr, hr', hp, hp', current_nonempty, hc, Lex.flushNonempty, Lex.flush]
              exact ⟨_, .inl rfl, ⟨by pg [h₁, List.map_append, List.map_cons, List.map_nil, encodeAll_single], by pg [h₂, hc]; rfl, by pg [h₃]; exact congrArg _ hq.symm, by pg [h₄]; exact congrArg _ he.symm⟩, hw⟩
        · have hp' : (decide (r = '(') || decide (r = ')')) = false := by simpa using hp
          by_cases hs : r = ' ' ∨ r = '\t' ∨ r = '\n' ∨ r = '\r'
          · have hs' : (((decide (r = ' ') || decide (r = '\t')) || decide (r = '\n')) || decide (r = '\r')) = true := by
              rcases hs with h | h | h | h <;> simp [h]
            cases hq : x.inQuotes with
            | true =>
              rw [hq] at h₃
              pg [h₁, h₂, h₃, h₄, Bool.false_eq_true, hr, hr', hp, hp', hs, hs']
              exact ⟨_, .inl rfl, hwrite _ hq, hw⟩
            | false =>
              rw [hq] at h₃
              by_cases hc : x.current = []
              · pg [h₁, h₂, h₃, h₄, Bool.false_eq_true, hr, hr', hp, hp', hs, hs', current_nonempty, hc, Lex.flushNonempty]
                exact ⟨_, .inl rfl, ⟨by pg [h₁], by pg [h₂, hc], by pg [h₃]; exact congrArg _ hq.symm, by pg [h₄]; exact congrArg _ he.symm⟩, hw⟩
              · pg [h₁, h₂, h₃, h₄, Bool.false_eq_true, hr, hr', hp, hp', hs, hs', current_nonempty, hc, Lex.flushNonempty, Lex.flush]
                exact ⟨_, .inl rfl, ⟨by pg [h₁, List.map_append, List.map_cons, List.map_nil], by pg [h₂, hc]; rfl, by pg [h₃]; exact congrArg _ hq.symm, by pg [h₄]; exact congrArg _ he.symm⟩, hw⟩
          · have hs' : (((decide (r = ' ') || decide (r = '\t')) || decide (r = '\n')) || decide (r = '\r')) = false := by
              simp only [not_or] at hs; simp [hs]
            pg [h₁, h₂, h₃, h₄, Bool.false_eq_true, hr, hr', hp, hp', hs, hs']
            exact ⟨_, .inl rfl, hwrite _ rfl, hw⟩

theorem pg_tokenize (line : Bytes) : pgRun n (d + 1) .tokenize [.str line] w =
    (match tokenize line with
    | .ok ts => .ret [.strs ts, .nil] w
    | .error e => .ret [.nil, .err e] w) := by
  rw [pgRun_succ _ _ _ _ _ _ rfl]
  simp only [PgFn.body, pgTokenize]
  pg [pgexec_range]
  rw [show (PgV.str line).items = .ok ((decodeAll line).map .rune) from rfl]
  pg []
  obtain ⟨st', h₁, h₂⟩ := pgRange_keeps (Inv := fun x st => Lexed .tokens x st ∧ st.w = w) .rune (fun x r k st h => token_round (n := n) w (pgRun n d) x r k st h)
    (decodeAll line) 0 {} _ (⟨⟨rfl, rfl, rfl, rfl⟩, rfl⟩ : Lexed .tokens {} (((((({ vars := fun _ => .nil, w := w } : PgSt).set .line (.str line)).set .tokens (.strs [])).set .current (.str [])).set .inQuotes (.bool false)).set .escapeNext (.bool false)) ∧ _)
  refine (congrArg (fun o : PgOut => o.andThen _) h₁).trans ?_
  obtain ⟨⟨t₁, t₂, t₃, t₄⟩, hw⟩ := h₂
  unfold tokenize
  dsimp only
  cases hq : ((decodeAll line).foldl tokenStep {}).inQuotes with
  | true =>
    rw [hq] at t₃
    pg [t₁, t₂, t₃, hw, List.append_nil]
  | false =>
    rw [hq] at t₃
    by_cases hc : ((decodeAll line).foldl tokenStep {}).current = []
    · pg [t₁, t₂, t₃, hw, Bool.false_eq_true, current_nonempty, hc, Lex.flushNonempty]
    · pg [t₁, t₂, t₃, hw, Bool.false_eq_true, current_nonempty, hc, Lex.flushNonempty, Lex.flush, List.map_append, List.map_cons, List.map_nil]

/-- The body of the loop of `splitOnSemicolons` (/repo/edlisp/parser/linebased.go:262-289). -/
def splitBody : PgS := match pgSplitOnSemicolons with
  | .seq _ (.seq _ (.seq _ (.seq _ (.seq (.range _ _ _ b) _)))) => b
  | _ => .skip

theorem split_round (w : PgW) (call : PgFn → List PgV → PgW → PgOut) (x : Lex) (r : Char) (k : Nat) (st : PgSt) (h : Lexed .parts x st ∧ st.w = w) :
    ∃ st', (splitBody.exec n call ((st.set .blank (.int k)).set .r (.rune r)) = .next st' ∨
      splitBody.exec n call ((st.set .blank (.int k)).set .r (.rune r)) = .cont st') ∧ Lexed .parts (splitStep x r) st' ∧ st'.w = w := by
  obtain ⟨h, hw⟩ := h
  simp only [splitBody, pgSplitOnSemicolons]
  obtain ⟨h₁, h₂, h₃, h₄⟩ := h
  unfold splitStep
  cases he : x.escapeNext with
  | true =>
    rw [he] at h₄
    pg [h₁, h₂, h₃, h₄]
    exact ⟨_, .inr rfl, ⟨by pg [h₁]; rfl, by pg []; rw [Lex.write, encodeAll_snoc], by pg [h₃]; rfl, by pg []⟩, hw⟩
  | false =>
    rw [he] at h₄
    by_cases hr : r = '\\'
    · subst hr
      cases hq : x.inQuotes with
      | true =>
        rw [hq] at h₃
        pg [h₁, h₂, h₃, h₄, Bool.false_eq_true]
        exact ⟨_, .inl rfl, ⟨by pg [h₁]; rfl, by pg []; rw [Lex.write, encodeAll_snoc], by pg [h₃]; exact congrArg _ hq.symm, by pg []⟩, hw⟩
      | false =>
        rw [hq] at h₃
        pg [h₁, h₂, h₃, h₄, Bool.false_eq_true]
        exact ⟨_, .inl rfl, ⟨by pg [h₁]; rfl, by pg []; rw [Lex.write, encodeAll_snoc], by pg [h₃]; exact congrArg _ hq.symm, by pg [h₄]⟩, hw⟩
    · by_cases hr' : r = '"'
      · subst hr'
        pg [h₁, h₂, h₃, h₄, Bool.false_eq_true, hr]
        exact ⟨_, .inl rfl, ⟨by pg [h₁]; rfl, by pg []; rw [Lex.write, encodeAll_snoc], by pg [h₃], by pg [h₄]; exact congrArg _ he.symm⟩, hw⟩
      · have hwrite : Lexed .parts (x.write r) (((st.set .blank (.int k)).set .r (.rune r)).set .current (.str (encodeAll x.current ++ encodeRune r))) :=
          ⟨by pg [h₁]; rfl, by pg []; rw [Lex.write, encodeAll_snoc], by pg [h₃]; rfl, by pg [h₄]; exact congrArg _ he.symm⟩
        by_cases hs : r = ';'
        · cases hq : x.inQuotes with
          | true =>
            rw [hq] at h₃
            pg [h₁, h₂, h₃, h₄, Bool.false_eq_true, hr, hr', hs]
            rw [hs] at hwrite
            exact ⟨_, .inl rfl, hwrite, hw⟩
          | false =>
            rw [hq] at h₃
            pg [h₁, h₂, h₃, h₄, Bool.false_eq_true, hr, hr', hs, Lex.flush]
            exact ⟨_, .inl rfl, ⟨by pg [h₁]; simp, by pg [h₂]; rfl, by pg [h₃]; exact congrArg _ hq.symm, by pg [h₄]; exact congrArg _ he.symm⟩, hw⟩
        · pg [h₁, h₂, h₃, h₄, Bool.false_eq_true, hr, hr', hs]
          exact ⟨_, .inl rfl, hwrite, hw⟩

theorem pg_splitOnSemicolons (line : Bytes) : pgRun n (d + 1) .splitOnSemicolons [.str line] w = .ret [.strs (splitOnSemicolons line)] w := by
  rw [pgRun_succ _ _ _ _ _ _ rfl]
  simp only [PgFn.body, pgSplitOnSemicolons]
  pg [pgexec_range]
  rw [show (PgV.str line).items = .ok ((decodeAll line).map .rune) from rfl]
  pg []
  obtain ⟨st', h₁, h₂⟩ := pgRange_keeps (Inv := fun x st => Lexed .parts x st ∧ st.w = w) .rune (fun x r k st h => split_round (n := n) w (pgRun n d) x r k st h)
    (decodeAll line) 0 {} _ (⟨⟨rfl, rfl, rfl, rfl⟩, rfl⟩ : Lexed .parts {} (((((({ vars := fun _ => .nil, w := w } : PgSt).set .line (.str line)).set .parts (.strs [])).set .current (.str [])).set .inQuotes (.bool false)).set .escapeNext (.bool false)) ∧ _)
  refine (congrArg (fun o : PgOut => o.andThen _) h₁).trans ?_
  obtain ⟨⟨t₁, t₂, t₃, t₄⟩, hw⟩ := h₂
  unfold splitOnSemicolons
  by_cases hc : ((decodeAll line).foldl splitStep {}).current = []
  · pg [t₁, t₂, t₃, hw, Bool.false_eq_true, current_nonempty, hc, Lex.flushNonempty]
  · pg [t₁, t₂, t₃, hw, Bool.false_eq_true, current_nonempty, hc, Lex.flushNonempty, Lex.flush, List.map_append, List.map_cons, List.map_nil]

end Texted
