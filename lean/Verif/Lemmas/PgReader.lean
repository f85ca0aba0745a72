import Verif.Lemmas.PgTokens
import Verif.Props.Grammar
/-
`ParseReader`, `ParseString`, `ParseSexp` (/repo/edlisp/parser/linebased.go) as they are written in Go.
-/
set_option linter.unusedSectionVars false
namespace Texted
variable [Ext] {n d : Nat} {w : PgW}

/-! ### Sizes -/

theorem chunks_length (s : Bytes) : ((chunks s).flatMap (·.2)).length ≤ s.length := by
  have : ∀ f s, ((chunksAux f s).flatMap (·.2)).length ≤ s.length := by
    intro f
    induction f with
    | zero => intro s; simp [chunksAux]
    | succ f ih =>
      intro s
      cases s with
      | nil => simp [chunksAux]
      | cons c s =>
        unfold chunksAux
        have := ih ((c :: s).drop (decodeRune (c :: s)).2)
        have h := congrArg List.length (List.take_append_drop (decodeRune (c :: s)).2 (c :: s))
        rw [List.length_append] at h
        simp only [List.flatMap_cons, List.length_append]
        omega
  exact this _ _

theorem flat_sublist {l₁ l₂ : List (Char × Bytes)} (h : l₁.Sublist l₂) : (l₁.flatMap (·.2)).length ≤ (l₂.flatMap (·.2)).length := by
  induction h with
  | slnil => exact Nat.le_refl _
  | cons a _ ih => simp only [List.flatMap_cons, List.length_append]; omega
  | cons_cons a _ ih => simp only [List.flatMap_cons, List.length_append]; omega

theorem trimLeft_length (s : Bytes) : (trimLeft s).length ≤ s.length :=
  Nat.le_trans (flat_sublist (List.dropWhile_sublist _)) (chunks_length s)

theorem trimSpace_length (s : Bytes) : (trimSpace s).length ≤ s.length := by
  refine Nat.le_trans (flat_sublist (l₂ := chunks s) ?_) (chunks_length s)
  refine List.Sublist.trans ?_ (List.dropWhile_sublist (l := chunks s) fun p => isSpace p.1)
  have := (List.dropWhile_sublist (l := ((chunks s).dropWhile fun p => isSpace p.1).reverse) fun p => isSpace p.1).reverse
  rwa [List.reverse_reverse] at this

theorem encodeAll_length (cs : List Char) : (encodeAll cs).length ≤ 4 * cs.length := by
  induction cs with
  | nil => simp [encodeAll]
  | cons c cs ih =>
    have := (encodeRune_length c).2
    rw [encodeAll, List.flatMap_cons, List.length_append, List.length_cons]
    rw [encodeAll] at ih
    omega

theorem splitStep_size (x : Lex) (r : Char) (k : Nat) (h : (∀ p ∈ x.parts, p.length ≤ k) ∧ x.current.length ≤ k) :
    (∀ p ∈ (splitStep x r).parts, p.length ≤ k + 1) ∧ (splitStep x r).current.length ≤ k + 1 := by
  obtain ⟨h₁, h₂⟩ := h
  have h₁' : ∀ p ∈ x.parts, p.length ≤ k + 1 := fun p hp => Nat.le_succ_of_le (h₁ p hp)
  have hwr : (∀ p ∈ (x.write r).parts, p.length ≤ k + 1) ∧ (x.write r).current.length ≤ k + 1 :=
    ⟨h₁', by simp [Lex.write, h₂]⟩
  unfold splitStep
  split
  · exact hwr
  · split
    · exact hwr
    · split
      · exact hwr
      · split
        · split
          · exact hwr
          · refine ⟨fun p hp => ?_, by simp [Lex.flush]⟩
            rcases List.mem_append.mp hp with hp | hp
            · exact h₁' p hp
            · rw [List.mem_singleton.mp hp]; omega
        · exact hwr

theorem split_size (cs : List Char) : ∀ (x : Lex) (k : Nat), (∀ p ∈ x.parts, p.length ≤ k) ∧ x.current.length ≤ k →
    (∀ p ∈ (cs.foldl splitStep x).parts, p.length ≤ k + cs.length) ∧ (cs.foldl splitStep x).current.length ≤ k + cs.length := by
  induction cs with
  | nil => intro x k h; exact h
  | cons c cs ih =>
    intro x k h
    have := ih (splitStep x c) (k + 1) (splitStep_size x c k h)
    rw [List.foldl_cons, List.length_cons, show k + (cs.length + 1) = k + 1 + cs.length by omega]
    exact this

theorem splitOnSemicolons_size (line : Bytes) : ∀ c ∈ splitOnSemicolons line, c.length ≤ 4 * line.length := by
  intro c hc
  unfold splitOnSemicolons at hc
  obtain ⟨p, hp, rfl⟩ := List.mem_map.mp hc
  have hs := split_size (decodeAll line) {} 0 ⟨fun p hp => (nomatch hp), Nat.le_refl _⟩
  have hl := decodeAll_length line
  have : p.length ≤ line.length := by
    unfold Lex.flushNonempty at hp
    split at hp
    · have := hs.1 p hp; omega
    · rcases List.mem_append.mp hp with hp | hp
      · have := hs.1 p hp; omega
      · rw [List.mem_singleton.mp hp]; have := hs.2; omega
  have := encodeAll_length p
  omega

/-! ### The loop over the commands of a line -/

/-- The body of the loop over the lines (/repo/edlisp/parser/linebased.go:26-44) and what follows the loop. -/
def readerParts : PgS × PgS := match pgParseReader with
  | .seq _ (.seq _ (.seq (.forScan _ b) r)) => (b, r)
  | _ => (.skip, .skip)

/-- The body of the loop over the commands of a line (/repo/edlisp/parser/linebased.go:33-44). -/
def commandBody : PgS := match readerParts.1 with
  | .seq _ (.seq _ (.seq _ (.seq _ (.range _ _ _ b)))) => b
  | _ => .skip

theorem commands_go : ∀ (cs : List Bytes) (k : Nat) (st : PgSt) (acc : List Value), (∀ c ∈ cs, 2 * c.length + 12 ≤ n ∧ 2 * c.length + 12 ≤ d ∧ c.length < 4611686018427387904) →
    st.vars .expressions = .vals acc → st.w = w →
    (∀ vs, parseCommands cs = .ok vs → ∃ st', pgRange (fun st => commandBody.exec n (pgRun n d) st) .blank .command k (cs.map .str) st = .next st' ∧
      st'.vars .expressions = .vals (acc ++ vs) ∧ st'.vars .scanner = st.vars .scanner ∧ st'.w = w) ∧
    (∀ e, parseCommands cs = .err e → pgRange (fun st => commandBody.exec n (pgRun n d) st) .blank .command k (cs.map .str) st = .ret [.nil, .err e] w) := by
  intro cs
  induction cs with
  | nil =>
    intro k st acc _ h hw
    refine ⟨fun vs hv => ⟨st, rfl, ?_, rfl, hw⟩, fun e he => nomatch he⟩
    rw [h, ← Res.ok.inj hv, List.append_nil]
  | cons c cs ih =>
    intro k st acc hc h hw
    have hone := hc c List.mem_cons_self
    have hrest := fun x hx => hc x (List.mem_cons_of_mem _ hx)
    rw [parseCommands.eq_def]
    dsimp only
    by_cases ht : trimSpace c = []
    · rw [if_pos ht]
      have hb : commandBody.exec n (pgRun n d) ((st.set .blank (.int k)).set .command (.str c)) =
          .cont (((st.set .blank (.int k)).set .command (.str c)).set .command (.str [])) := by
        simp only [commandBody, readerParts, pgParseReader]
        pg [ht]
      have := ih (k + 1) (((st.set .blank (.int k)).set .command (.str c)).set .command (.str [])) acc hrest (by pg [h]) hw
      have hr : pgRange (fun st => commandBody.exec n (pgRun n d) st) .blank .command k ((c :: cs).map .str) st =
          pgRange (fun st => commandBody.exec n (pgRun n d) st) .blank .command (k + 1) (cs.map .str) (((st.set .blank (.int k)).set .command (.str c)).set .command (.str [])) := by
        rw [List.map_cons, pgRange, hb]; rfl
      rw [hr]
      refine ⟨fun vs hv => ?_, this.2⟩
      obtain ⟨st', a, b, c, e⟩ := this.1 vs hv
      exact ⟨st', a, b, by rw [c]; pg [], e⟩
    · rw [if_neg ht]
      have hl := trimSpace_length c
      have hp := pg_parseLine (n := n) (d := d) (w := w) (trimSpace c) (by omega) (by omega) (by omega)
      have htot := parseLine_total (trimSpace c)
      cases hm : parseLine (trimSpace c) with
      | ok v =>
        rw [hm, pgOne] at hp
        have hb : ∃ st', commandBody.exec n (pgRun n d) ((st.set .blank (.int k)).set .command (.str c)) = .next st' ∧
            st'.vars .expressions = .vals (acc ++ [v]) ∧ st'.vars .scanner = st.vars .scanner ∧ st'.w = w := by
          simp only [commandBody, readerParts, pgParseReader]
          pg [ht, hw, hp, h]
          exact ⟨_, rfl, by pg [h], by pg [], rfl⟩
        obtain ⟨s₁, e₁, e₂, e₃, e₄⟩ := hb
        have := ih (k + 1) s₁ (acc ++ [v]) hrest e₂ e₄
        have hr : pgRange (fun st => commandBody.exec n (pgRun n d) st) .blank .command k ((c :: cs).map .str) st =
            pgRange (fun st => commandBody.exec n (pgRun n d) st) .blank .command (k + 1) (cs.map .str) s₁ := by
          rw [List.map_cons, pgRange, e₁]; rfl
        rw [hr]
        have htc := parseCommands_total cs
        dsimp only
        cases hx : parseCommands cs with
        | ok ws =>
          refine ⟨fun vs hv => ?_, fun e he => nomatch he⟩
          obtain ⟨st', a, b, c, e⟩ := this.1 ws hx
          refine ⟨st', a, ?_, by rw [c, e₃], e⟩
          rw [b, ← Res.ok.inj hv, List.append_assoc]; rfl
        | err e =>
          refine ⟨fun vs hv => (nomatch hv), fun e' he => ?_⟩
          rw [← Res.err.inj he]
          exact this.2 e hx
        | panic => exact absurd hx htc
      | err e =>
        rw [hm, pgOne] at hp
        refine ⟨fun vs hv => (nomatch hv), fun e' he => ?_⟩
        rw [← Res.err.inj he]
        have hb : commandBody.exec n (pgRun n d) ((st.set .blank (.int k)).set .command (.str c)) = .ret [.nil, .err e] w := by
          simp only [commandBody, readerParts, pgParseReader]
          pg [ht, hw, hp, h]
        rw [List.map_cons, pgRange, hb]; rfl
      | panic => exact absurd hm htot

/-! ### The loop over the lines -/

theorem parseLines_scan (rest : Bytes) (h : rest ≠ []) : parseLines (splitByte nl rest) =
    parseLines (rest.takeWhile (· ≠ nl) :: splitByte nl (rest.drop ((rest.takeWhile (· ≠ nl)).length + 1))) := by
  have hx : ∀ x ∈ rest.takeWhile (· ≠ nl), x ≠ nl := fun x hx => by simpa using List.all_eq_true.mp (List.all_takeWhile (p := fun x : UInt8 => decide (x ≠ nl)) (l := rest)) x hx
  have happ : rest.takeWhile (· ≠ nl) ++ rest.dropWhile (· ≠ nl) = rest := List.takeWhile_append_dropWhile
  cases hd : rest.dropWhile (· ≠ nl) with
  | nil =>
    rw [hd, List.append_nil] at happ
    rw [happ] at hx ⊢
    rw [splitByte_last nl rest hx, List.drop_eq_nil_of_le (by omega), splitByte]
    unfold parseLines
    split
    · rfl
    · cases parseRawLine (dropCR rest) with
      | ok vs => rfl
      | err e => rfl
      | panic => rfl
  | cons c r =>
    have hc : c = nl := by
      have := List.head?_dropWhile_not (fun x : UInt8 => decide (x ≠ nl)) rest
      rw [hd] at this
      simpa using this
    subst hc
    rw [hd] at happ
    conv => lhs; rw [← happ]
    rw [splitByte_line nl _ r hx]
    congr 3
    generalize rest.takeWhile (· ≠ nl) = a at happ
    rw [← happ, ← List.drop_drop, List.drop_left]
    rfl

theorem takeWhile_length_le (rest : Bytes) : (rest.takeWhile (· ≠ nl)).length ≤ rest.length := (List.takeWhile_sublist _).length_le

theorem dropCR_length (s : Bytes) : (dropCR s).length ≤ s.length := by
  unfold dropCR
  split
  · rw [List.length_dropLast]; omega
  · exact Nat.le_refl _

theorem line_go (t : Bytes) (st : PgSt) (acc : List Value) (more : Bytes) (e : Option Bytes)
    (hn : 8 * t.length + 12 ≤ n) (hd : 8 * t.length + 12 ≤ d) (hs : 4 * t.length < 4611686018427387904)
    (h : st.vars .expressions = .vals acc) (hw : st.w = w) (hsc : st.vars .scanner = .scanner more t e) :
    (∀ vs, parseRawLine t = .ok vs → ∃ st', (readerParts.1.exec n (pgRun n d) st = .next st' ∨ readerParts.1.exec n (pgRun n d) st = .cont st') ∧
      st'.vars .expressions = .vals (acc ++ vs) ∧ st'.vars .scanner = st.vars .scanner ∧ st'.w = w) ∧
    (∀ e, parseRawLine t = .err e → readerParts.1.exec n (pgRun n d) st = .ret [.nil, .err e] w) := by
  unfold parseRawLine
  by_cases ht : trimLeft t = []
  · rw [ht]
    refine ⟨fun vs hv => ?_, fun e he => nomatch he⟩
    simp only [readerParts, pgParseReader]
    pg [hsc, ht]
    refine ⟨_, .inr rfl, ?_, by pg [hsc], hw⟩
    pg [h]
    rw [← Res.ok.inj hv, List.append_nil]
  · obtain ⟨d, rfl⟩ : ∃ e, d = e + 1 := ⟨d - 1, by omega⟩
    have hl := trimLeft_length t
    have hsize := splitOnSemicolons_size (trimLeft t)
    have hb : readerParts.1.exec n (pgRun n (d + 1)) st = pgRange (fun st => commandBody.exec n (pgRun n (d + 1)) st) .blank .command 0 ((splitOnSemicolons (trimLeft t)).map .str)
        ((({ (st.set .line (.str (trimLeft t))) with w := w } : PgSt).set .tmp1 (.strs (splitOnSemicolons (trimLeft t)))).set .commands (.strs (splitOnSemicolons (trimLeft t)))) := by
      simp only [commandBody, readerParts, pgParseReader]
      pg [hsc, ht, hw, pg_splitOnSemicolons, pgexec_range, show ∀ l, (PgV.strs l).items = .ok (l.map .str) from fun _ => rfl]
    have hg := commands_go (n := n) (d := d + 1) (w := w) (splitOnSemicolons (trimLeft t)) 0
      ((({ (st.set .line (.str (trimLeft t))) with w := w } : PgSt).set .tmp1 (.strs (splitOnSemicolons (trimLeft t)))).set .commands (.strs (splitOnSemicolons (trimLeft t)))) acc
      (fun c hc => by have := hsize c hc; omega) (by pg [h]) rfl
    rw [hb]
    refine ⟨fun vs hv => ?_, hg.2⟩
    obtain ⟨st', a, b, c, e⟩ := hg.1 vs hv
    exact ⟨st', .inl a, b, by rw [c]; pg [], e⟩

theorem scan_go : ∀ (m : Nat) (rest text : Bytes) (st : PgSt) (acc : List Value), rest.length < m → 8 * rest.length + 12 ≤ n → 8 * rest.length + 12 ≤ d →
    4 * rest.length < 4611686018427387904 → st.vars .expressions = .vals acc → st.w = w → st.vars .scanner = .scanner rest text none →
    (pgScan (fun st => readerParts.1.exec n (pgRun n d) st) .scanner m st).andThen (fun st => readerParts.2.exec n (pgRun n d) st) =
      pgSome w (match parseLines (splitByte nl rest) with
        | .ok vs => .ok (acc ++ vs)
        | .err e => .err e
        | .panic => .panic) := by
  intro m
  induction m with
  | zero => intro rest _ _ _ h; omega
  | succ m ih =>
    intro rest text st acc hm hn hd hs h hw hsc
    by_cases hr : rest = []
    · subst hr
      have : pgScan (fun st => readerParts.1.exec n (pgRun n d) st) .scanner (m + 1) st = .next st := by
        rw [pgScan, hsc]; rfl
      rw [this]
      simp only [readerParts, pgParseReader]
      pg [hsc, h, hw, pgError]
      show _ = pgSome w (.ok (acc ++ []))
      rw [List.append_nil]; rfl
    · rw [parseLines_scan rest hr]
      have hlen := takeWhile_length_le rest
      have hpos : 0 < rest.length := List.length_pos_iff.mpr hr
      generalize hline : rest.takeWhile (· ≠ nl) = line at hlen
      unfold parseLines
      by_cases hlong : maxToken ≤ line.length
      · rw [if_pos hlong]
        have : pgScan (fun st => readerParts.1.exec n (pgRun n d) st) .scanner (m + 1) st =
            .next (st.set .scanner (.scanner rest text (some (b! "bufio.Scanner: token too long")))) := by
          rw [pgScan, hsc]
          simp only [scanNext, if_neg hr, hline, if_pos hlong]
        rw [this]
        simp only [readerParts, pgParseReader]
        pg [h, hw, pgError, List.append_nil]
        rfl
      · rw [if_neg hlong]
        have hcr := dropCR_length line
        have hsc' : pgScan (fun st => readerParts.1.exec n (pgRun n d) st) .scanner (m + 1) st =
            (readerParts.1.exec n (pgRun n d) (st.set .scanner (.scanner (rest.drop (line.length + 1)) (dropCR line) none))).round
              (pgScan (fun st => readerParts.1.exec n (pgRun n d) st) .scanner m) := by
          rw [pgScan, hsc]
          simp only [scanNext, if_neg hr, hline, if_neg hlong]
        rw [hsc']
        have hg := line_go (n := n) (d := d) (w := w) (dropCR line) (st.set .scanner (.scanner (rest.drop (line.length + 1)) (dropCR line) none)) acc
          (rest.drop (line.length + 1)) none (by omega) (by omega) (by omega) (by pg [h]) hw (by pg [])
        have hdrop : (rest.drop (line.length + 1)).length < rest.length := by rw [List.length_drop]; omega
        have htot : parseRawLine (dropCR line) ≠ .panic := parseCommands_total _
        cases hm' : parseRawLine (dropCR line) with
        | ok vs =>
          obtain ⟨st', a, b, c, e⟩ := hg.1 vs hm'
          have hi := ih (rest.drop (line.length + 1)) (dropCR line) st' (acc ++ vs) (by omega) (by omega) (by omega) (by omega) b e (by rw [c]; pg [])
          have ha : (readerParts.1.exec n (pgRun n d) (st.set .scanner (.scanner (rest.drop (line.length + 1)) (dropCR line) none))).round
              (pgScan (fun st => readerParts.1.exec n (pgRun n d) st) .scanner m) = pgScan (fun st => readerParts.1.exec n (pgRun n d) st) .scanner m st' := by
            rcases a with a | a <;> rw [a] <;> rfl
          rw [ha, hi]
          cases parseLines (splitByte nl (rest.drop (line.length + 1))) with
          | ok ws => simp only [List.append_assoc]
          | err e => rfl
          | panic => rfl
        | err e =>
          rw [hg.2 e hm']
          rfl
        | panic => exact absurd hm' htot

theorem pg_ParseReader (s : Bytes) (hs : 4 * s.length < 4611686018427387904) (hn : 8 * s.length + 20 ≤ n) (hd : 8 * s.length + 20 ≤ d) :
    pgRun n d .ParseReader [.str s] w = pgSome w (parseString s) := by
  obtain ⟨d, rfl⟩ : ∃ e, d = e + 1 := ⟨d - 1, by omega⟩
  rw [pgRun_succ _ _ _ _ _ _ rfl]
  simp only [PgFn.body, pgParseReader]
  pg [pgexec_forScan]
  refine (scan_go (n := n) (d := d) (w := w) n s [] _ [] (by omega) (by omega) (by omega) hs (by pg []) rfl (by pg [])).trans ?_
  unfold parseString scanLines
  cases parseLines (splitByte nl s) <;> rfl

theorem pg_ParseString (s : Bytes) (hs : 4 * s.length < 4611686018427387904) (hn : 8 * s.length + 21 ≤ n) (hd : 8 * s.length + 21 ≤ d) :
    pgRun n d .ParseString [.str s] w = pgSome w (parseString s) := by
  obtain ⟨d, rfl⟩ : ∃ e, d = e + 1 := ⟨d - 1, by omega⟩
  rw [pgRun_succ _ _ _ _ _ _ rfl]
  simp only [PgFn.body, pgParseString]
  pg [pg_ParseReader (n := n) (d := d) (w := w) s hs (by omega) (by omega)]
  have htot : parseString s ≠ .panic := parseLines_total _
  cases hm : parseString s with
  | ok v => rw [pgSome]; pg []
  | err e => rw [pgSome]; pg []
  | panic => exact absurd hm htot

theorem pg_ParseSexp (s : Bytes) (hs : 4 * s.length < 4611686018427387904) (hn : 8 * s.length + 21 ≤ n) (hd : 8 * s.length + 21 ≤ d) :
    pgRun n d .ParseSexp [.str s] w = pgSome w (parseSexp s) := by
  obtain ⟨d, rfl⟩ : ∃ e, d = e + 2 := ⟨d - 2, by omega⟩
  have hl := trimSpace_length s
  rw [pgRun_succ _ _ _ _ _ _ rfl]
  simp only [PgFn.body, pgParseSexp]
  unfold parseSexp
  dsimp only
  by_cases ht : trimSpace s = []
  · pg [ht]; rfl
  · cases hh : hasPrefix (trimSpace s) (b! "(") with
    | true =>
      have hp := pg_parseSExpression (n := n) (d := d + 1) (w := w) (trimSpace s) (by omega) (by omega) (by omega)
      have htot : parseSExpression (trimSpace s) ≠ .panic := by
        have := parseLine_total (trimSpace s)
        unfold parseLine at this
        rwa [hh, if_pos rfl] at this
      cases hm : parseSExpression (trimSpace s) with
      | ok v => rw [hm, pgOne] at hp; pg [ht, hh, hp, List.nil_append]; rfl
      | err e => rw [hm, pgOne] at hp; pg [ht, hh, hp]; rfl
      | panic => exact absurd hm htot
    | false =>
      cases hm : parseToken (trimSpace s) with
      | ok v => pg [ht, hh, pg_parseToken, hm, Bool.false_eq_true, List.nil_append]; rfl
      | error e => pg [ht, hh, pg_parseToken, hm, Bool.false_eq_true]; rfl

end Texted
