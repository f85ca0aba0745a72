import Verif.Lemmas.PgParse
import Verif.Lemmas.Grammar
/-
`parseTokens`, `parseList`, `parseSExpression`, `parseShellLike`, `parseLine` (/repo/edlisp/parser/linebased.go) as they are written in Go.
-/
set_option linter.unusedSectionVars false
namespace Texted
variable [Ext] {n d : Nat} {w : PgW}

theorem goAt_drop {α : Type} {l : List α} {p : Nat} {t : α} {r : List α} (h : l.drop p = t :: r) : goAt l (p : Int) = some t := by
  unfold goAt
  rw [if_neg (by omega), Int.toNat_natCast]
  have := congrArg List.head? h
  rwa [List.head?_drop] at this

theorem drop_succ_of {α : Type} {l : List α} {p : Nat} {t : α} {r : List α} (h : l.drop p = t :: r) : l.drop (p + 1) = r := by
  have := congrArg (List.drop 1) h
  rwa [List.drop_drop] at this

theorem lt_of_drop {α : Type} {l : List α} {p : Nat} {t : α} {r : List α} (h : l.drop p = t :: r) : p < l.length := by
  have := congrArg List.length h
  rw [List.length_drop, List.length_cons] at this
  omega

/-- The result of `parseTokens(tokens, p)` is the model's. -/
def TokensGo (n d : Nat) (w : PgW) (ts : List Bytes) (p : Nat) : Res Bytes (Value × List Bytes) → Prop
  | .ok (v, r) => ∃ q, p < q ∧ q ≤ ts.length ∧ r = ts.drop q ∧ pgRun n d .parseTokens [.strs ts, .int p] w = .ret [.val v, .int q, .nil] w
  | .err e => ∃ q : Int, pgRun n d .parseTokens [.strs ts, .int p] w = .ret [.nil, .int q, .err e] w
  | .panic => True

/-- The loop of `parseList` (/repo/edlisp/parser/linebased.go:239-252) and what follows it: the condition, the body, the rest. -/
def listParts : PgE × PgS × PgS := match pgParseList with
  | .seq _ (.seq _ (.seq (.while c _ b) r)) => (c, b, r)
  | _ => (.nil, .skip, .skip)

/-- The result of the loop of `parseList` (after `acc`) at `p` and of what follows it is the model's. -/
def ListGo (o : PgOut) (w : PgW) (ts : List Bytes) (p : Nat) (acc : List Value) : Res Bytes (List Value × List Bytes) → Prop
  | .ok (vs, r) => ∃ q, p < q ∧ q ≤ ts.length ∧ r = ts.drop q ∧ o = .ret [.val (.list (acc ++ vs)), .int q, .nil] w
  | .err e => ∃ q : Int, o = .ret [.nil, .int q, .err e] w
  | .panic => True

theorem pgindex_strs {l : List Bytes} {i : Int} {t : Bytes} (h : goAt l i = some t) : (PgV.strs l).index (.int i) = .ok (.str t) := by
  show (GoR.orPanic (goAt l i)).bind _ = _
  rw [h]; rfl

/-- The loop of `parseList`, `m` rounds. -/
def listRun (n d m : Nat) (st : PgSt) : PgOut :=
  (pgLoop (fun st => listParts.1.eval st) (fun st => listParts.2.1.exec n (pgRun n d) st) (fun st => PgS.skip.exec n (pgRun n d) st) m st).andThen
    fun st => listParts.2.2.exec n (pgRun n d) st

theorem listRun_end {m : Nat} {st : PgSt} {ts : List Bytes} {p : Nat} {acc : List Value} (h₁ : st.vars .tokens = .strs ts) (h₂ : st.vars .pos = .int p)
    (h₃ : st.vars .elements = .vals acc) (hw : st.w = w) (hl : ts.length ≤ p) :
    listRun n d (m + 1) st = .ret [.nil, .int p, .err (b! "unterminated list")] w := by
  have hd : decide ((p : Int) < (ts.length : Int)) = false := by simp; omega
  have hd' : decide ((ts.length : Int) ≤ (p : Int)) = true := by simp; omega
  simp only [listRun, pgLoop, listParts, pgParseList]
  pg [h₁, h₂, h₃, hd, hd', hw, List.append_nil]

theorem listRun_close {m : Nat} {st : PgSt} {ts r : List Bytes} {p : Nat} {acc : List Value} (h₁ : st.vars .tokens = .strs ts) (h₂ : st.vars .pos = .int p)
    (h₃ : st.vars .elements = .vals acc) (hw : st.w = w) (hs : ts.length < 4611686018427387904) (ht : ts.drop p = b! ")" :: r) :
    listRun n d (m + 1) st = .ret [.val (.list acc), .int (p + 1 : Nat), .nil] w := by
  have hp := lt_of_drop ht
  have hd : decide ((p : Int) < (ts.length : Int)) = true := by simp; omega
  have hd' : decide ((ts.length : Int) ≤ (p : Int)) = false := by simp; omega
  have hi := pgindex_strs (goAt_drop ht)
  have hx : wrap64 ((p : Int) + 1) = ((p + 1 : Nat) : Int) := by rw [wrap64_eq (by omega) (by omega)]; omega
  simp only [listRun, pgLoop, listParts, pgParseList]
  pg [h₁, h₂, h₃, hd, hd', hw, hi, hx]

theorem listRun_next {m : Nat} {st : PgSt} {ts r : List Bytes} {p : Nat} {t : Bytes} {acc : List Value} (h₁ : st.vars .tokens = .strs ts) (h₂ : st.vars .pos = .int p)
    (h₃ : st.vars .elements = .vals acc) (hw : st.w = w) (ht : ts.drop p = t :: r) (hc : t ≠ b! ")") {v : Value} {q : Nat}
    (hr : pgRun n d .parseTokens [.strs ts, .int p] w = .ret [.val v, .int q, .nil] w) :
    ∃ st', listRun n d (m + 1) st = listRun n d m st' ∧ st'.vars .tokens = .strs ts ∧ st'.vars .pos = .int q ∧ st'.vars .elements = .vals (acc ++ [v]) ∧ st'.w = w := by
  have hp := lt_of_drop ht
  have hd : decide ((p : Int) < (ts.length : Int)) = true := by simp; omega
  have hi := pgindex_strs (goAt_drop ht)
  simp only [listRun, pgLoop, listParts, pgParseList]
  pg [h₁, h₂, h₃, hd, hw, hi, hc, hr]
  exact ⟨_, rfl, by pg [h₁], by pg [], by pg [], rfl⟩

theorem listRun_fail {m : Nat} {st : PgSt} {ts r : List Bytes} {p : Nat} {t : Bytes} {acc : List Value} (h₁ : st.vars .tokens = .strs ts) (h₂ : st.vars .pos = .int p)
    (h₃ : st.vars .elements = .vals acc) (hw : st.w = w) (ht : ts.drop p = t :: r) (hc : t ≠ b! ")") {e : Bytes} {q : Int}
    (hr : pgRun n d .parseTokens [.strs ts, .int p] w = .ret [.nil, .int q, .err e] w) :
    listRun n d (m + 1) st = .ret [.nil, .int p, .err e] w := by
  have hp := lt_of_drop ht
  have hd : decide ((p : Int) < (ts.length : Int)) = true := by simp; omega
  have hi := pgindex_strs (goAt_drop ht)
  simp only [listRun, pgLoop, listParts, pgParseList]
  pg [h₁, h₂, h₃, hd, hw, hi, hc, hr]

theorem pg_parseList (ts : List Bytes) (p : Nat) : pgRun n (d + 1) .parseList [.strs ts, .int p] w =
    listRun n d n (((({ vars := fun _ => .nil, w := w } : PgSt).set .tokens (.strs ts)).set .start (.int p)).set .elements (.vals []) |>.set .pos (.int p)) := by
  rw [pgRun_succ _ _ _ _ _ _ rfl]
  simp only [PgFn.body, pgParseList]
  pg []
  rfl

theorem tokens_go (hs : ts.length < 4611686018427387904) : ∀ f,
    (∀ d p, p ≤ ts.length → f < d → f ≤ n → TokensGo n d w ts p (parseTokens f (ts.drop p))) ∧
    (∀ d m p st acc, p ≤ ts.length → f ≤ d → f ≤ n → f ≤ m → st.vars .tokens = .strs ts → st.vars .pos = .int p → st.vars .elements = .vals acc → st.w = w →
      ListGo (listRun n d m st) w ts p acc (parseList f (ts.drop p))) := by
  intro f
  induction f with
  | zero => exact ⟨fun _ _ _ _ _ => trivial, fun _ _ _ _ _ _ _ _ _ _ _ _ _ => trivial⟩
  | succ f ih =>
    obtain ⟨ih₁, ih₂⟩ := ih
    constructor
    · intro d p hp hd hn
      obtain ⟨d, rfl⟩ : ∃ e, d = e + 1 := ⟨d - 1, by omega⟩
      cases ht : ts.drop p with
      | nil =>
        have hl : ts.length ≤ p := by
          have := congrArg List.length ht
          rw [List.length_drop, List.length_nil] at this; omega
        have hd' : decide ((ts.length : Int) ≤ (p : Int)) = true := by simp; omega
        refine ⟨p, ?_⟩
        rw [pgRun_succ _ _ _ _ _ _ rfl]
        simp only [PgFn.body, pgParseTokens]
        pg [hd', List.append_nil]
      | cons t r =>
        have hp' := lt_of_drop ht
        have hi := pgindex_strs (goAt_drop ht)
        have hd' : decide ((ts.length : Int) ≤ (p : Int)) = false := by simp; omega
        have hx : wrap64 ((p : Int) + 1) = ((p + 1 : Nat) : Int) := by rw [wrap64_eq (by omega) (by omega)]; omega
        unfold parseTokens
        by_cases h₁ : t = b! "("
        · rw [if_pos h₁]
          subst h₁
          obtain ⟨d, rfl⟩ : ∃ e, d = e + 1 := ⟨d - 1, by omega⟩
          have hg := ih₂ d n (p + 1) (((({ vars := fun _ => .nil, w := w } : PgSt).set .tokens (.strs ts)).set .start (.int (p + 1 : Nat))).set .elements (.vals []) |>.set .pos (.int (p + 1 : Nat))) []
            (by omega) (by omega) (by omega) (by omega) rfl rfl rfl rfl
          rw [← pg_parseList, drop_succ_of ht] at hg
          have hrun : ∀ (a : PgV) (q : Int) (e : PgV), pgRun n (d + 1) .parseList [.strs ts, .int (p + 1 : Nat)] w = .ret [a, .int q, e] w →
              pgRun n (d + 1 + 1) .parseTokens [.strs ts, .int p] w = .ret [a, .int q, e] w := by
            intro a q e he
            rw [pgRun_succ _ _ _ _ _ _ rfl]
            simp only [PgFn.body, pgParseTokens]
            pg [hd', hi, hx, he, Bool.false_eq_true]
          cases hm : parseList f r with
          | ok x =>
            rw [hm] at hg
            obtain ⟨q, a, b, c, e⟩ := hg
            exact ⟨q, by omega, b, c, hrun _ _ _ e⟩
          | err e =>
            rw [hm] at hg
            obtain ⟨q, e⟩ := hg
            exact ⟨q, hrun _ _ _ e⟩
          | panic => trivial
        · rw [if_neg h₁]
          by_cases h₂ : t = b! ")"
          · rw [if_pos h₂]
            subst h₂
            refine ⟨p, ?_⟩
            rw [pgRun_succ _ _ _ _ _ _ rfl]
            simp only [PgFn.body, pgParseTokens]
            pg [hd', hi, h₁, List.append_nil, Bool.false_eq_true]
          · rw [if_neg h₂]
            obtain ⟨d, rfl⟩ : ∃ e, d = e + 1 := ⟨d - 1, by omega⟩
            cases hm : parseToken t with
            | ok v =>
              refine ⟨p + 1, by omega, by omega, (drop_succ_of ht).symm, ?_⟩
              rw [pgRun_succ _ _ _ _ _ _ rfl]
              simp only [PgFn.body, pgParseTokens]
              pg [hd', hi, h₁, h₂, hx, pg_parseToken, hm, Bool.false_eq_true]
            | error e =>
              refine ⟨(p + 1 : Nat), ?_⟩
              rw [pgRun_succ _ _ _ _ _ _ rfl]
              simp only [PgFn.body, pgParseTokens]
              pg [hd', hi, h₁, h₂, hx, pg_parseToken, hm, Bool.false_eq_true]
    · intro d m p st acc hp hd hn hm h₁ h₂ h₃ hw
      obtain ⟨m, rfl⟩ : ∃ e, m = e + 1 := ⟨m - 1, by omega⟩
      cases ht : ts.drop p with
      | nil =>
        have hl : ts.length ≤ p := by
          have := congrArg List.length ht
          rw [List.length_drop, List.length_nil] at this; omega
        exact ⟨p, listRun_end h₁ h₂ h₃ hw hl⟩
      | cons t r =>
        have hp' := lt_of_drop ht
        unfold parseList
        by_cases hc : t = b! ")"
        · rw [if_pos hc]
          subst hc
          refine ⟨p + 1, by omega, by omega, (drop_succ_of ht).symm, ?_⟩
          rw [List.append_nil]
          exact listRun_close h₁ h₂ h₃ hw hs ht
        · rw [if_neg hc]
          have hg := ih₁ d p hp (by omega) (by omega)
          rw [ht] at hg
          cases hx : parseTokens f (t :: r) with
          | ok x =>
            obtain ⟨v, r'⟩ := x
            rw [hx] at hg
            obtain ⟨q, a, b, rfl, e⟩ := hg
            obtain ⟨st', k₀, k₁, k₂, k₃, k₄⟩ := listRun_next (m := m) h₁ h₂ h₃ hw ht hc e
            have hl := ih₂ d m q st' (acc ++ [v]) b (by omega) (by omega) (by omega) k₁ k₂ k₃ k₄
            rw [k₀]
            dsimp only
            cases hy : parseList f (ts.drop q) with
            | ok y =>
              rw [hy] at hl
              obtain ⟨q', a', b', c', e'⟩ := hl
              exact ⟨q', by omega, b', c', by rw [e', List.append_assoc]; rfl⟩
            | err e' =>
              rw [hy] at hl
              exact hl
            | panic => trivial
          | err e =>
            rw [hx] at hg
            obtain ⟨q, e⟩ := hg
            exact ⟨p, listRun_fail h₁ h₂ h₃ hw ht hc e⟩
          | panic => trivial

/-- The results of a function that returns a value and an error. -/
def pgOne (w : PgW) : Res Bytes Value → PgOut
  | .ok v => .ret [.val v, .nil] w
  | .err e => .ret [.nil, .err e] w
  | .panic => .panic

/-- The results of a function that returns a slice of values and an error. -/
def pgSome (w : PgW) : Res Bytes (List Value) → PgOut
  | .ok vs => .ret [.vals vs, .nil] w
  | .err e => .ret [.nil, .err e] w
  | .panic => .panic

theorem decodeAll_length (s : Bytes) : (decodeAll s).length ≤ s.length := by
  have : ∀ f s, (decodeAux f s).length ≤ f := by
    intro f
    induction f with
    | zero => intro s; simp [decodeAux]
    | succ f ih =>
      intro s
      cases s with
      | nil => simp [decodeAux]
      | cons c s =>
        unfold decodeAux
        exact Nat.succ_le_succ (ih _)
  exact this _ _

/-- The tokens so far, with the one that is not finished. -/
def Lex.weight (x : Lex) : Nat := x.parts.length + (if x.current = [] then 0 else 1)

theorem weight_write (x : Lex) (r : Char) : (x.write r).weight ≤ x.weight + 1 := by
  simp [Lex.weight, Lex.write]

theorem weight_flush (x : Lex) : x.flushNonempty.parts.length = x.weight := by
  unfold Lex.flushNonempty Lex.weight
  split <;> simp [Lex.flush]

theorem weight_flushed (x : Lex) : x.flushNonempty.weight = x.weight := by
  unfold Lex.flushNonempty Lex.weight
  split
  · simp [*]
  · simp [Lex.flush]

theorem flushed_current (x : Lex) : x.flushNonempty.current = [] := by
  unfold Lex.flushNonempty
  split
  · assumption
  · rfl

theorem weight_step (x : Lex) (r : Char) : (tokenStep x r).weight ≤ x.weight + 1 := by
  have h := weight_write x r
  unfold tokenStep
  split
  · exact h
  · split
    · exact h
    · split
      · exact h
      · split
        · split
          · exact h
          · unfold Lex.weight
            simp only [flushed_current, List.length_append, List.length_cons, List.length_nil, if_true]
            rw [weight_flush]
            unfold Lex.weight
            omega
        · split
          · split
            · exact h
            · rw [weight_flushed]; omega
          · exact h

theorem weight_fold (cs : List Char) : ∀ x : Lex, (cs.foldl tokenStep x).weight ≤ x.weight + cs.length := by
  induction cs with
  | nil => intro x; exact Nat.le_refl _
  | cons c cs ih =>
    intro x
    have h₁ := ih (tokenStep x c)
    have h₂ := weight_step x c
    rw [List.foldl_cons, List.length_cons]
    omega

theorem tokenize_length (line : Bytes) {ts : List Bytes} (h : tokenize line = .ok ts) : ts.length ≤ line.length := by
  unfold tokenize at h
  dsimp only at h
  split at h
  · exact nomatch h
  · rw [← Except.ok.inj h, List.length_map, weight_flush]
    have := weight_fold (decodeAll line) {}
    have := decodeAll_length line
    have : ({} : Lex).weight = 0 := rfl
    omega

theorem pg_parseSExpression (line : Bytes) (hs : line.length < 4611686018427387904) (hn : 2 * line.length + 10 ≤ n) (hd : 2 * line.length + 10 ≤ d) :
    pgRun n d .parseSExpression [.str line] w = pgOne w (parseSExpression line) := by
  obtain ⟨d, rfl⟩ : ∃ e, d = e + 2 := ⟨d - 2, by omega⟩
  rw [pgRun_succ _ _ _ _ _ _ rfl]
  simp only [PgFn.body, pgParseSExpression]
  unfold parseSExpression
  cases ht : tokenize line with
  | error e => pg [pg_tokenize, ht]; rfl
  | ok ts =>
    have hl := tokenize_length line ht
    have hg := (tokens_go (n := n) (w := w) (ts := ts) (by omega) (tokenFuel ts)).1 (d + 1) 0 (by omega) (by unfold tokenFuel; omega) (by unfold tokenFuel; omega)
    rw [List.drop_zero] at hg
    have hp := (parse_total (tokenFuel ts)).1 ts (by unfold tokenFuel; omega)
    pg [pg_tokenize, ht]
    cases hm : parseTokens (tokenFuel ts) ts with
    | ok x =>
      rw [hm] at hg
      obtain ⟨q, _, _, _, e⟩ := hg
      pg [show (0 : Int) = ((0 : Nat) : Int) from rfl, e]; rfl
    | err e =>
      rw [hm] at hg
      obtain ⟨q, e⟩ := hg
      pg [show (0 : Int) = ((0 : Nat) : Int) from rfl, e]; rfl
    | panic => exact absurd hm hp

/-- The loop of `parseShellLike` (/repo/edlisp/parser/linebased.go:131-155) and what follows it: the condition, the body, the rest. -/
def shellParts : PgE × PgS × PgS := match pgParseShellLike with
  | .seq _ (.seq _ (.seq _ (.seq _ (.seq (.while c _ b) r)))) => (c, b, r)
  | _ => (.nil, .skip, .skip)

/-- The loop of `parseShellLike`, `m` rounds. -/
def shellRun (n d m : Nat) (st : PgSt) : PgOut :=
  (pgLoop (fun st => shellParts.1.eval st) (fun st => shellParts.2.1.exec n (pgRun n d) st) (fun st => PgS.skip.exec n (pgRun n d) st) m st).andThen
    fun st => shellParts.2.2.exec n (pgRun n d) st

/-- The variables of the loop. -/
structure ShellAt (ts : List Bytes) (p : Nat) (acc : List Value) (w : PgW) (st : PgSt) : Prop where
  tokens : st.vars .tokens = .strs ts
  pos : st.vars .pos = .int p
  elements : st.vars .elements = .vals acc
  world : st.w = w

/-- The values after those there are. -/
def Res.after (acc : List Value) : Res Bytes (List Value) → Res Bytes Value
  | .ok vs => .ok (.list (acc ++ vs))
  | .err e => .err e
  | .panic => .panic

theorem shell_go {ts : List Bytes} (hs : ts.length < 4611686018427387904) (hn : 2 * ts.length + 4 ≤ n) (hd : 2 * ts.length + 4 ≤ d) :
    ∀ f m p st acc, p ≤ ts.length → f ≤ m → ShellAt ts p acc w st → shellLoop f (ts.drop p) ≠ .panic →
      shellRun n d m st = pgOne w ((shellLoop f (ts.drop p)).after acc) := by
  intro f
  induction f with
  | zero => intro _ _ _ _ _ _ _ h; exact absurd rfl h
  | succ f ih =>
    intro m p st acc hp hm ⟨h₁, h₂, h₃, hw⟩ hnp
    obtain ⟨m, rfl⟩ : ∃ e, m = e + 1 := ⟨m - 1, by omega⟩
    obtain ⟨d, rfl⟩ : ∃ e, d = e + 1 := ⟨d - 1, by omega⟩
    cases ht : ts.drop p with
    | nil =>
      have hl : ts.length ≤ p := by
        have := congrArg List.length ht
        rw [List.length_drop, List.length_nil] at this; omega
      have hd' : decide ((p : Int) < (ts.length : Int)) = false := by simp; omega
      simp only [shellRun, pgLoop, shellParts, pgParseShellLike]
      pg [h₁, h₂, h₃, hd', hw]
      rw [shellLoop, Res.after, pgOne, List.append_nil]
    | cons t r =>
      have hp' := lt_of_drop ht
      have hi := pgindex_strs (goAt_drop ht)
      have hd' : decide ((p : Int) < (ts.length : Int)) = true := by simp; omega
      have hx : wrap64 ((p : Int) + 1) = ((p + 1 : Nat) : Int) := by rw [wrap64_eq (by omega) (by omega)]; omega
      rw [ht] at hnp
      unfold shellLoop at hnp ⊢
      by_cases c₁ : t = b! "("
      · rw [if_pos c₁] at hnp ⊢
        subst c₁
        have hlen : (b! "(" :: r).length ≤ ts.length := by rw [← ht, List.length_drop]; omega
        have hg := (tokens_go (n := n) (w := w) (ts := ts) hs (tokenFuel (b! "(" :: r))).1 (d + 1) p hp (by unfold tokenFuel; omega) (by unfold tokenFuel; omega)
        rw [ht] at hg
        cases hm' : parseTokens (tokenFuel (b! "(" :: r)) (b! "(" :: r) with
        | ok x =>
          obtain ⟨v, r'⟩ := x
          rw [hm'] at hg hnp
          obtain ⟨q, a, b, rfl, e⟩ := hg
          dsimp only at hnp ⊢
          have hnext : ∃ st', shellRun n (d + 1) (m + 1) st = shellRun n (d + 1) m st' ∧ ShellAt ts q (acc ++ [v]) w st' := by
            simp only [shellRun, pgLoop, shellParts, pgParseShellLike]
            pg [h₁, h₂, h₃, hd', hw, hi, e]
            exact ⟨_, rfl, by pg [h₁], by pg [], by pg [], rfl⟩
          obtain ⟨st', k, hk⟩ := hnext
          have hp₂ : shellLoop f (ts.drop q) ≠ .panic := by
            intro h; rw [h] at hnp; exact hnp rfl
          rw [k, ih m q st' (acc ++ [v]) b (by omega) hk hp₂]
          cases hy : shellLoop f (ts.drop q) with
          | ok y => simp only [Res.after, List.append_assoc, List.cons_append, List.nil_append]
          | err e => rfl
          | panic => exact absurd hy hp₂
        | err e =>
          rw [hm'] at hg
          obtain ⟨q, e⟩ := hg
          simp only [shellRun, pgLoop, shellParts, pgParseShellLike]
          pg [h₁, h₂, h₃, hd', hw, hi, e]
          rfl
        | panic => rw [hm'] at hnp; exact absurd rfl hnp
      · rw [if_neg c₁] at hnp ⊢
        by_cases c₂ : t = b! ")"
        · rw [if_pos c₂]
          subst c₂
          simp only [shellRun, pgLoop, shellParts, pgParseShellLike]
          pg [h₁, h₂, h₃, hd', hw, hi, c₁, List.append_nil]
          rfl
        · rw [if_neg c₂] at hnp ⊢
          cases hm' : parseToken t with
          | error e =>
            simp only [shellRun, pgLoop, shellParts, pgParseShellLike]
            pg [h₁, h₂, h₃, hd', hw, hi, c₁, c₂, pg_parseToken, hm']
            rfl
          | ok v =>
            rw [hm'] at hnp
            dsimp only at hnp ⊢
            have hnext : ∃ st', shellRun n (d + 1) (m + 1) st = shellRun n (d + 1) m st' ∧ ShellAt ts (p + 1) (acc ++ [v]) w st' := by
              simp only [shellRun, pgLoop, shellParts, pgParseShellLike]
              pg [h₁, h₂, h₃, hd', hw, hi, c₁, c₂, pg_parseToken, hm', hx]
              exact ⟨_, rfl, by pg [h₁], by pg [], by pg [], rfl⟩
            obtain ⟨st', k, hk⟩ := hnext
            rw [← drop_succ_of ht] at hnp ⊢
            have hp₂ : shellLoop f (ts.drop (p + 1)) ≠ .panic := by
              intro h; rw [h] at hnp; exact hnp rfl
            rw [k, ih m (p + 1) st' (acc ++ [v]) (by omega) (by omega) hk hp₂]
            cases hy : shellLoop f (ts.drop (p + 1)) with
            | ok y => simp only [Res.after, List.append_assoc, List.cons_append, List.nil_append]
            | err e => rfl
            | panic => exact absurd hy hp₂

theorem pg_parseShellLike (line : Bytes) (hs : line.length < 4611686018427387904) (hn : 2 * line.length + 10 ≤ n) (hd : 2 * line.length + 10 ≤ d) :
    pgRun n d .parseShellLike [.str line] w = pgOne w (parseShellLike line) := by
  obtain ⟨d, rfl⟩ : ∃ e, d = e + 2 := ⟨d - 2, by omega⟩
  rw [pgRun_succ _ _ _ _ _ _ rfl]
  simp only [PgFn.body, pgParseShellLike]
  unfold parseShellLike
  cases ht : tokenize line with
  | error e => pg [pg_tokenize, ht]; rfl
  | ok ts =>
    have hl := tokenize_length line ht
    pg [pg_tokenize, ht, pgexec_while]
    have hp := shell_total (ts.length + 1) ts (by omega)
    have hg := shell_go (n := n) (d := d + 1) (w := w) (ts := ts) (by omega) (by omega) (by omega) (ts.length + 1) n 0
    refine (hg _ [] (by omega) (by omega) ⟨?_, ?_, ?_, ?_⟩ hp).trans ?_
    · pg []
    · pg []; rfl
    · pg []
    · rfl
    · rw [List.drop_zero]
      cases shellLoop (ts.length + 1) ts <;> rfl

theorem pg_parseLine (line : Bytes) (hs : line.length < 4611686018427387904) (hn : 2 * line.length + 11 ≤ n) (hd : 2 * line.length + 11 ≤ d) :
    pgRun n d .parseLine [.str line] w = pgOne w (parseLine line) := by
  obtain ⟨d, rfl⟩ : ∃ e, d = e + 1 := ⟨d - 1, by omega⟩
  have hp := parseLine_total line
  rw [pgRun_succ _ _ _ _ _ _ rfl]
  simp only [PgFn.body, pgParseLine]
  unfold parseLine at hp ⊢
  cases hh : hasPrefix line (b! "(") with
  | true =>
    rw [hh] at hp
    pg [hh, pg_parseSExpression line hs (n := n) (d := d) (w := w) (by omega) (by omega)]
    rw [if_pos rfl] at hp
    cases hm : parseSExpression line with
    | ok v => rw [pgOne]; pg []
    | err e => rw [pgOne]; pg []
    | panic => exact absurd hm hp
  | false =>
    rw [hh] at hp
    pg [hh, pg_parseShellLike line hs (n := n) (d := d) (w := w) (by omega) (by omega)]
    rw [if_neg Bool.false_ne_true] at hp
    cases hm : parseShellLike line with
    | ok v => rw [pgOne]; pg []
    | err e => rw [pgOne]; pg []
    | panic => exact absurd hm hp

end Texted
