import Verif.Lemmas.GoBuiltins
import Verif.Lemmas.Scan
/-
The loops of Model/GoSource.
-/
namespace Texted
open Spec
variable [Ext] {n : Nat} {args : List Value} {b : Buffer}

/-! ### More rounds do not change a run that ended -/

omit [Ext] in
theorem goLoop_zero {cond : GoSt → GoR GoV} {body : GoSt → GoOut} {st : GoSt} : goLoop cond body 0 st = .spin := rfl
omit [Ext] in
theorem goLoop_succ {cond : GoSt → GoR GoV} {body : GoSt → GoOut} {m : Nat} {st : GoSt} :
    goLoop cond body (m + 1) st = (cond st).run fun v => goIf v ((body st).andThen (goLoop cond body m)) (.next st) := rfl

omit [Ext] in
theorem goLoop_more {cond : GoSt → GoR GoV} {body body' : GoSt → GoOut} (hb : ∀ st, body st ≠ .spin → body' st = body st) :
    ∀ (m m' : Nat) (st : GoSt), m ≤ m' → goLoop cond body m st ≠ .spin → goLoop cond body' m' st = goLoop cond body m st := by
  intro m
  induction m with
  | zero => intro m' st _ h; exact absurd rfl h
  | succ m ih =>
    intro m' st hm h
    obtain _ | m' := m'
    · omega
    · rw [goLoop_succ] at h ⊢
      rw [goLoop_succ]
      cases hc : cond st with
      | panic => rfl
      | stuck => rfl
      | ok v =>
        rw [hc] at h
        simp only [GoR.ok_run] at h ⊢
        cases v with
        | bool t =>
          cases t with
          | false => rfl
          | true =>
            simp only [goIf_bool, if_true] at h ⊢
            have hne : body st ≠ .spin := by intro e; rw [e] at h; exact h rfl
            rw [hb st hne]
            cases hbs : body st with
            | next st' =>
              rw [hbs] at h
              exact ih m' st' (by omega) h
            | _ => rfl
        | _ => rfl

omit [Ext] in
theorem goRange_more {body body' : GoSt → GoOut} {i x : GoVar} (hb : ∀ st, body st ≠ .spin → body' st = body st) :
    ∀ (vs : List Value) (k : Nat) (st : GoSt), goRange body i x k vs st ≠ .spin → goRange body' i x k vs st = goRange body i x k vs st := by
  intro vs
  induction vs with
  | nil => intros; rfl
  | cons v vs ih =>
    intro k st h
    unfold goRange at h ⊢
    have hne : body ((st.set i (.int k)).set x (.val v)) ≠ .spin := by intro e; rw [e] at h; exact h rfl
    rw [hb _ hne]
    cases hbs : body ((st.set i (.int k)).set x (.val v)) with
    | next st' => rw [hbs] at h; exact ih _ _ h
    | _ => rfl

theorem exec_more (f : GoS) : ∀ (m m' : Nat) (st : GoSt), m ≤ m' → f.exec m st ≠ .spin → f.exec m' st = f.exec m st := by
  induction f with
  | seq a c iha ihc =>
    intro m m' st hm h
    rw [exec_seq] at h ⊢
    rw [exec_seq]
    have hne : a.exec m st ≠ .spin := by intro e; rw [e] at h; exact h rfl
    rw [iha m m' st hm hne]
    cases hs : a.exec m st with
    | next st' => rw [hs] at h; exact ihc m m' st' hm h
    | _ => rfl
  | if_ c x y ihx ihy =>
    intro m m' st hm h
    rw [exec_if] at h ⊢
    rw [exec_if]
    cases hc : c.eval st with
    | ok v =>
      rw [hc] at h
      cases v with
      | bool t => cases t
                  · exact ihy m m' st hm h
                  · exact ihx m m' st hm h
      | _ => rfl
    | _ => rfl
  | «while» c post body ihp ihb =>
    intro m m' st hm h
    rw [exec_while] at h ⊢
    rw [exec_while]
    refine goLoop_more ?_ m m' st hm h
    intro st h
    have hne : body.exec m st ≠ .spin := by intro e; rw [e] at h; exact h rfl
    rw [ihb m m' st hm hne]
    cases hs : body.exec m st with
    | next st' => rw [hs] at h; exact ihp m m' st' hm h
    | _ => rfl
  | range i x e body ihb =>
    intro m m' st hm h
    unfold GoS.exec at h ⊢
    cases he : e.eval st with
    | ok v =>
      rw [he] at h
      cases v with
      | vals vs => exact goRange_more (fun st h => ihb m m' st hm h) vs 0 st h
      | _ => rfl
    | _ => rfl
  | _ => intros; rfl

/-! ### Scanning -/

/-- The index of the byte before. -/
def prev64 (i : Int) : Int := wrap64 (i - 1)

/-- What a scan does: an index panic, or a new value of the variable. -/
def goMove (st : GoSt) (x : GoVar) : Option Int → GoOut
  | none => .panic
  | some p => .next (st.set x (.int p))

/-- `e` says that the byte of the text at `f x` does not stop the scan. -/
def Tests (e : GoE) (x : GoVar) (f : Int → Int) (stop : UInt8 → Bool) : Prop :=
  ∀ (st : GoSt) (c : Bytes) (i : Int), st.vars .content = .str c → st.vars x = .int i →
    e.eval st = (GoR.orPanic (goAt c (f i))).bind fun ch => .ok (.bool (!stop ch))

theorem tests_fwd_line (x : GoVar) : Tests (.bin .ne (.index (.var .content) (.var x)) (.char 10)) x id (· == nl) := by
  intro st c i hc hx
  show ((GoV.index (st.vars .content) (st.vars x)).bind fun v => GoOp.apply .ne v (.byte 10)) = _
  rw [hc, hx, index_str, id]
  cases goAt c i with
  | none => rfl
  | some ch => rw [orPanic_some, GoR.ok_bind, GoR.ok_bind, GoR.ok_bind, ne_bytes]; rfl

theorem tests_back_line (x : GoVar) : Tests (.bin .ne (.index (.var .content) (.bin .sub (.var x) (.int 1))) (.char 10)) x prev64 (· == nl) := by
  intro st c i hc hx
  show (((GoOp.apply .sub (st.vars x) (.int 1)).bind fun w => GoV.index (st.vars .content) w).bind fun v => GoOp.apply .ne v (.byte 10)) = _
  rw [hc, hx, sub_ints, GoR.ok_bind, index_str, ← prev64]
  cases goAt c _ with
  | none => rfl
  | some ch => rw [orPanic_some, GoR.ok_bind, GoR.ok_bind, GoR.ok_bind, ne_bytes]; rfl

theorem tests_fwd_letter (x : GoVar) : Tests (.call1 .isLetter (.index (.var .content) (.var x))) x id (fun ch => !isLetter ch) := by
  intro st c i hc hx
  show (GoV.index (st.vars .content) (st.vars x)).bind GoF.isLetter.apply1 = _
  rw [hc, hx, index_str, id]
  cases goAt c i with
  | none => rfl
  | some ch => rw [orPanic_some, GoR.ok_bind, GoR.ok_bind, GoR.ok_bind, call_isLetter, Bool.not_not]

theorem tests_fwd_other (x : GoVar) : Tests (.not (.call1 .isLetter (.index (.var .content) (.var x)))) x id isLetter := by
  intro st c i hc hx
  show ((GoV.index (st.vars .content) (st.vars x)).bind GoF.isLetter.apply1).bind GoV.not = _
  rw [hc, hx, index_str, id]
  cases goAt c i with
  | none => rfl
  | some ch => rfl

theorem tests_back_letter (x : GoVar) :
    Tests (.call1 .isLetter (.index (.var .content) (.bin .sub (.var x) (.int 1)))) x prev64 (fun ch => !isLetter ch) := by
  intro st c i hc hx
  show ((GoOp.apply .sub (st.vars x) (.int 1)).bind fun w => GoV.index (st.vars .content) w).bind GoF.isLetter.apply1 = _
  rw [hc, hx, sub_ints, GoR.ok_bind, index_str, ← prev64]
  cases goAt c _ with
  | none => rfl
  | some ch => rw [orPanic_some, GoR.ok_bind, GoR.ok_bind, GoR.ok_bind, call_isLetter, Bool.not_not]

theorem tests_back_other (x : GoVar) :
    Tests (.not (.call1 .isLetter (.index (.var .content) (.bin .sub (.var x) (.int 1))))) x prev64 isLetter := by
  intro st c i hc hx
  show (((GoOp.apply .sub (st.vars x) (.int 1)).bind fun w => GoV.index (st.vars .content) w).bind GoF.isLetter.apply1).bind GoV.not = _
  rw [hc, hx, sub_ints, GoR.ok_bind, index_str, ← prev64]
  cases goAt c _ with
  | none => rfl
  | some ch => rfl

omit [Ext] in
theorem GoSt.set_same {st : GoSt} {x : GoVar} {v : GoV} (h : st.vars x = v) : st.set x v = st := by rw [← h, GoSt.set_eq]

omit [Ext] in
theorem goAt_some {c : Bytes} {i : Int} (h : 0 ≤ i) (h' : i < c.length) : ∃ ch, goAt c i = some ch ∧ c[i.toNat]? = some ch := by
  have hi : i.toNat < c.length := by omega
  refine ⟨c[i.toNat], ?_, List.getElem?_eq_getElem hi⟩
  rw [goAt, if_neg (by omega), List.getElem?_eq_getElem hi]

omit [Ext] in
theorem goAt_none {c : Bytes} {i : Int} (h : i < 0 ∨ (c.length : Int) ≤ i) : goAt c i = none := by
  unfold goAt
  split
  · rfl
  · rw [List.getElem?_eq_none]; omega

omit [Ext] in
theorem scanFwd_here {c : Bytes} {stop : UInt8 → Bool} {pos : Int} {ch : UInt8} (h : 0 ≤ pos) (h' : pos < c.length)
    (hc : c[pos.toNat]? = some ch) : scanFwd c stop pos = if stop ch then some pos else scanFwd c stop (pos + 1) := by
  obtain ⟨k, rfl⟩ := Int.eq_ofNat_of_zero_le h
  have hk : k < c.length := by omega
  rw [Int.toNat_natCast, List.getElem?_eq_getElem hk] at hc
  have e : c.drop k = ch :: c.drop (k + 1) := by rw [← Option.some.inj hc]; exact List.drop_eq_getElem_cons hk
  unfold scanFwd
  rw [if_neg (by omega), if_neg (by omega), Int.toNat_natCast, e, runLen]
  cases stop ch with
  | true => simp
  | false =>
    simp only [Bool.false_eq_true, if_false]
    by_cases hl : (c.length : Int) ≤ (k : Int) + 1
    · have : c.drop (k + 1) = [] := List.drop_eq_nil_of_le (by omega)
      simp [hl, this, runLen]
    · have e2 : ((k : Int) + 1).toNat = k + 1 := by omega
      rw [if_neg hl, if_neg (by omega), e2]
      congr 1; omega

omit [Ext] in
theorem scanBack_here {c : Bytes} {stop : UInt8 → Bool} {pos : Int} (h : 0 < pos) {ch : UInt8}
    (hc : c[(pos - 1).toNat]? = some ch) : scanBack c stop pos = if stop ch then some pos else scanBack c stop (pos - 1) := by
  obtain ⟨k, rfl⟩ : ∃ k : Nat, pos = k + 1 := ⟨(pos - 1).toNat, by omega⟩
  have e1 : ((k : Int) + 1 - 1).toNat = k := by omega
  have e2 : ((k : Int) + 1).toNat = k + 1 := by omega
  rw [e1] at hc
  unfold scanBack
  rw [if_neg (by omega), e2, scanBackN, hc]
  dsimp only
  cases stop ch with
  | true => simp
  | false =>
    simp only [Bool.false_eq_true, if_false]
    by_cases hk : k = 0
    · subst hk; simp [scanBackN]
    · rw [if_neg (by omega), e1]

theorem loop_fwd_aux {x : GoVar} {e : GoE} {stop : UInt8 → Bool} {c : Bytes} (ht : Tests e x id stop) (hx : x ≠ .content)
    (hl : c.length < 4611686018427387904) : ∀ (m : Nat) (st : GoSt) (pos : Int),
    st.vars .content = .str c → st.vars x = .int pos → 0 ≤ pos → ((c.length : Int) - pos).toNat < m →
    goLoop (fun st => (GoE.bin .and (.bin .lt (.var x) (.len (.var .content))) e).eval st)
      (fun st => ((GoS.set x (.bin .add (.var x) (.int 1))).exec n st).andThen fun st => GoS.skip.exec n st) m st
      = goMove st x (scanFwd c stop pos) := by
  intro m
  induction m with
  | zero => intros; omega
  | succ m ih =>
    intro st pos hc hv hp hm
    have hcond : (GoE.bin .and (.bin .lt (.var x) (.len (.var .content))) e).eval st
        = goShort false (.bool (iLt pos c.length)) (e.eval st) := by
      show ((((GoV.len (st.vars .content)).bind fun w => GoOp.apply .lt (st.vars x) w)).bind fun v => goShort false v (e.eval st)) = _
      rw [hc, hv]; rfl
    rw [goLoop_succ]
    rw [hcond]
    by_cases hlt : pos < c.length
    · obtain ⟨ch, h1, h2⟩ := goAt_some hp hlt
      rw [ht st c pos hc hv, id, h1, orPanic_some, GoR.ok_bind, scanFwd_here hp hlt h2]
      have e0 : iLt pos c.length = true := by rw [iLt_true]; exact hlt
      rw [e0, goShort_and, GoR.ok_run, goIf_bool, Bool.true_and]
      cases hs : stop ch with
      | true => simp [goMove, GoSt.set_same hv]
      | false =>
        simp only [Bool.not_false, if_true, Bool.false_eq_true, if_false]
        have hb : ((GoS.set x (.bin .add (.var x) (.int 1))).exec n st) = .next (st.set x (.int (pos + 1))) := by
          show (GoOp.apply .add (st.vars x) (.int 1)).run (fun v => .next (st.set x v)) = _
          rw [hv, add_ints, wrap64_eq (by omega) (by omega)]; rfl
        rw [hb]
        show goLoop _ _ m (st.set x (.int (pos + 1))) = _
        rw [ih (st.set x (.int (pos + 1))) (pos + 1) (by rw [GoSt.set_vars, if_neg (Ne.symm hx), hc])
          (by rw [GoSt.set_vars, if_pos rfl]) (by omega) (by omega)]
        cases scanFwd c stop (pos + 1) with
        | none => rfl
        | some p => simp [goMove, GoSt.set_set]
    · have e0 : iLt pos c.length = false := by rw [← Bool.not_eq_true, iLt_true]; exact hlt
      have e1 : scanFwd c stop pos = some pos := by rw [scanFwd, if_pos (by omega)]
      rw [e0, goShort_false, GoR.ok_run, goIf_bool, e1]
      simp [goMove, GoSt.set_same hv]

/-- `for x < len(content) && e { x++ }`. -/
theorem loop_fwd {x : GoVar} {e : GoE} {stop : UInt8 → Bool} {c : Bytes} {st : GoSt} {pos : Int} (ht : Tests e x id stop) (hx : x ≠ .content)
    (hl : c.length < 4611686018427387904) (hn : c.length < n) (hc : st.vars .content = .str c) (hv : st.vars x = .int pos) :
    (GoS.while (.bin .and (.bin .lt (.var x) (.len (.var .content))) e) .skip (.set x (.bin .add (.var x) (.int 1)))).exec n st
      = goMove st x (scanFwd c stop pos) := by
  by_cases hp : 0 ≤ pos
  · rw [exec_while]
    exact loop_fwd_aux ht hx hl n st pos hc hv hp (by omega)
  · obtain _ | m := n
    · omega
    · rw [exec_while, goLoop_succ]
      show (((((GoV.len (st.vars .content)).bind fun w => GoOp.apply .lt (st.vars x) w)).bind fun v => goShort false v (e.eval st))).run _ = _
      rw [ht st c pos hc hv, id, goAt_none (Or.inl (by omega)), hc, hv, scanFwd, if_neg (by omega), if_pos (by omega)]
      have e0 : iLt pos c.length = true := by rw [iLt_true]; omega
      rw [len_str, GoR.ok_bind, lt_ints, GoR.ok_bind, e0]; rfl

omit [Ext] in
theorem scanBackN_le {c : Bytes} {stop : UInt8 → Bool} : ∀ {k p : Nat}, scanBackN c stop k = some p → p ≤ k := by
  intro k
  induction k with
  | zero => intro p h; simp [scanBackN] at h; omega
  | succ k ih =>
    intro p h
    rw [scanBackN] at h
    split at h
    · cases h
    · split at h
      · cases h; omega
      · have := ih h; omega

omit [Ext] in
theorem scanBack_le {c : Bytes} {stop : UInt8 → Bool} {pos p : Int} (h : scanBack c stop pos = some p) : p ≤ pos := by
  unfold scanBack at h
  split at h
  · cases h; omega
  · cases hk : scanBackN c stop pos.toNat with
    | none => rw [hk] at h; cases h
    | some k =>
      have := scanBackN_le hk
      rw [hk] at h
      cases h
      show (k : Int) ≤ pos
      omega

omit [Ext] in
theorem goScan_beyond {c : Bytes} {stop : UInt8 → Bool} {pos : Int} (h : (c.length : Int) < pos) : scanBack c stop pos = none := by
  obtain ⟨k, rfl⟩ : ∃ k : Nat, pos = k + 1 := ⟨(pos - 1).toNat, by omega⟩
  have e2 : ((k : Int) + 1).toNat = k + 1 := by omega
  rw [scanBack, if_neg (by omega), e2, scanBackN, List.getElem?_eq_none (by omega)]; rfl

omit [Ext] in
theorem IsPrevWordStart.lt {c : Bytes} {i k : Nat} (h : IsPrevWordStart c i k) (hi : 0 < i) : k < i := by
  obtain ⟨m, h1, h2, h3, h4, h5, h6⟩ := h
  rcases Nat.lt_or_ge k i with hk | hk
  · exact hk
  · have e : m = i := by omega
    have e' : k = i := by omega
    subst e e'
    rcases h4 with h4 | h4
    · omega
    · rcases h6 with h6 | h6
      · omega
      · exact absurd h4 h6

theorem loop_back_aux {x : GoVar} {e : GoE} {stop : UInt8 → Bool} {c : Bytes} (ht : Tests e x prev64 stop) (hx : x ≠ .content)
    (hl : c.length < 4611686018427387904) : ∀ (m : Nat) (st : GoSt) (pos : Int),
    st.vars .content = .str c → st.vars x = .int pos → pos ≤ c.length → pos.toNat < m →
    goLoop (fun st => (GoE.bin .and (.bin .gt (.var x) (.int 0)) e).eval st)
      (fun st => ((GoS.set x (.bin .sub (.var x) (.int 1))).exec n st).andThen fun st => GoS.skip.exec n st) m st
      = goMove st x (scanBack c stop pos) := by
  intro m
  induction m with
  | zero => intros; omega
  | succ m ih =>
    intro st pos hc hv hp hm
    have hcond : (GoE.bin .and (.bin .gt (.var x) (.int 0)) e).eval st
        = goShort false (.bool (iLt 0 pos)) (e.eval st) := by
      show ((GoOp.apply .gt (st.vars x) (.int 0)).bind fun v => goShort false v (e.eval st)) = _
      rw [hv]; rfl
    rw [goLoop_succ]
    rw [hcond]
    by_cases hlt : 0 < pos
    · obtain ⟨ch, h1, h2⟩ := goAt_some (c := c) (i := pos - 1) (by omega) (by omega)
      have hw : prev64 pos = pos - 1 := wrap64_eq (by omega) (by omega)
      rw [ht st c pos hc hv, hw, h1, orPanic_some, GoR.ok_bind, scanBack_here hlt h2]
      have e0 : iLt 0 pos = true := by rw [iLt_true]; exact hlt
      rw [e0, goShort_and, GoR.ok_run, goIf_bool, Bool.true_and]
      cases hs : stop ch with
      | true => simp [goMove, GoSt.set_same hv]
      | false =>
        simp only [Bool.not_false, if_true, Bool.false_eq_true, if_false]
        have hb : ((GoS.set x (.bin .sub (.var x) (.int 1))).exec n st) = .next (st.set x (.int (pos - 1))) := by
          show (GoOp.apply .sub (st.vars x) (.int 1)).run (fun v => .next (st.set x v)) = _
          rw [hv, sub_ints, show wrap64 (pos - 1) = pos - 1 from hw]; rfl
        rw [hb]
        show goLoop _ _ m (st.set x (.int (pos - 1))) = _
        rw [ih (st.set x (.int (pos - 1))) (pos - 1) (by rw [GoSt.set_vars, if_neg (Ne.symm hx), hc])
          (by rw [GoSt.set_vars, if_pos rfl]) (by omega) (by omega)]
        cases scanBack c stop (pos - 1) with
        | none => rfl
        | some p => simp [goMove, GoSt.set_set]
    · have e0 : iLt 0 pos = false := by rw [← Bool.not_eq_true, iLt_true]; exact hlt
      have e1 : scanBack c stop pos = some pos := by rw [scanBack, if_pos (by omega)]
      rw [e0, goShort_false, GoR.ok_run, goIf_bool, e1]
      simp [goMove, GoSt.set_same hv]

/-- `for x > 0 && e { x-- }`. -/
theorem loop_back {x : GoVar} {e : GoE} {stop : UInt8 → Bool} {c : Bytes} {st : GoSt} {pos : Int}
    (ht : Tests e x prev64 stop) (hx : x ≠ .content)
    (hl : c.length < 4611686018427387904) (hn : c.length < n) (hp' : pos ≤ maxInt) (hc : st.vars .content = .str c) (hv : st.vars x = .int pos) :
    (GoS.while (.bin .and (.bin .gt (.var x) (.int 0)) e) .skip (.set x (.bin .sub (.var x) (.int 1)))).exec n st
      = goMove st x (scanBack c stop pos) := by
  by_cases hp : pos ≤ c.length
  · rw [exec_while]
    exact loop_back_aux ht hx hl n st pos hc hv hp (by omega)
  · obtain _ | m := n
    · omega
    · rw [exec_while, goLoop_succ]
      show ((GoOp.apply .gt (st.vars x) (.int 0)).bind fun v => goShort false v (e.eval st)).run _ = _
      have hw : prev64 pos = pos - 1 := wrap64_eq (by omega) (by omega)
      rw [ht st c pos hc hv, hw, goAt_none (Or.inr (by omega)), hv]
      have e0 : iLt 0 pos = true := by rw [iLt_true]; omega
      have e1 : scanBack c stop pos = none := goScan_beyond (by omega)
      rw [gt_ints, GoR.ok_bind, e0, e1]; rfl

/-! ### Counted loops -/

/-- The variables of a counted loop: the text, `count`, `i` and the position. -/
structure Counts (c : Bytes) (count : Int) (x : GoVar) (st : GoSt) (pos i : Int) : Prop where
  content : st.vars .content = .str c
  count : st.vars .count = .int count
  pos : st.vars x = .int pos
  i : st.vars .i = .int i

/-- What a counted loop leaves. -/
def goMoved (st : GoSt) (x : GoVar) (r : Option Int) (o : GoOut) : Prop :=
  match r with
  | none => o = .panic
  | some p => ∃ j : Int, o = .next ((st.set x (.int p)).set .i (.int j))

omit [Ext] in
theorem Counts.next {c : Bytes} {count : Int} {x : GoVar} {st : GoSt} {pos i p : Int} (h : Counts c count x st pos i)
    (hx : x ≠ .content) (hx' : x ≠ .count) (hx'' : x ≠ .i) (j : Int) : Counts c count x ((st.set x (.int p)).set .i (.int j)) p j where
  content := by rw [GoSt.set_vars, if_neg (by decide), GoSt.set_vars, if_neg (Ne.symm hx)]; exact h.content
  count := by rw [GoSt.set_vars, if_neg (by decide), GoSt.set_vars, if_neg (Ne.symm hx')]; exact h.count
  pos := by rw [GoSt.set_vars, if_neg hx'', GoSt.set_vars, if_pos rfl]
  i := by rw [GoSt.set_vars, if_pos rfl]

omit [Ext] in
theorem loop_count {cond : GoSt → GoR GoV} {body : GoSt → GoOut} {c : Bytes} {count : Int} {x : GoVar}
    {going : Int → Bool} {step : Int → Option Int} {walk : Nat → Int → Option Int} {size : Int → Int → Nat} {good : Int → Prop}
    (hx : x ≠ .content) (hx' : x ≠ .count) (hx'' : x ≠ .i)
    (hw0 : ∀ pos, walk 0 pos = some pos)
    (hw : ∀ k pos, walk (k + 1) pos = if going pos then (step pos).bind (walk k) else some pos)
    (hcond : ∀ st pos i, Counts c count x st pos i → cond st = .ok (.bool (iLt i count && going pos)))
    (hbody : ∀ st pos i, Counts c count x st pos i → good pos → going pos = true → i < count → 0 ≤ i →
      body st = match step pos with | none => .panic | some p => .next ((st.set x (.int p)).set .i (.int (i + 1))))
    (hgood : ∀ pos p i, good pos → going pos = true → step pos = some p → i < count → good p ∧ size p (i + 1) < size pos i) :
    ∀ (m : Nat) (st : GoSt) (pos i : Int), Counts c count x st pos i → good pos → 0 ≤ i → size pos i < m →
      goMoved st x (walk (count - i).toNat pos) (goLoop cond body m st) := by
  intro m
  induction m with
  | zero => intros; omega
  | succ m ih =>
    intro st pos i h hg hi hm
    rw [goLoop_succ, hcond st pos i h, GoR.ok_run, goIf_bool]
    have stays : goMoved st x (some pos) (.next st) := by
      refine ⟨i, ?_⟩
      rw [GoSt.set_same h.pos, GoSt.set_same h.i]
    by_cases hlt : i < count
    · have e0 : iLt i count = true := by rw [iLt_true]; exact hlt
      obtain ⟨k, hk⟩ : ∃ k, (count - i).toNat = k + 1 := ⟨(count - i).toNat - 1, by omega⟩
      rw [hk, hw, e0, Bool.true_and]
      cases hgo : going pos with
      | false => exact stays
      | true =>
        simp only [if_true]
        rw [hbody st pos i h hg hgo hlt hi]
        cases hs : step pos with
        | none => rfl
        | some p =>
          obtain ⟨hg', hsz⟩ := hgood pos p i hg hgo hs hlt
          have hk' : k = (count - (i + 1)).toNat := by omega
          have := ih _ p (i + 1) (h.next (p := p) hx hx' hx'' (i + 1)) hg' (by omega) (by omega)
          rw [← hk'] at this
          simp only [Option.bind_some, GoOut.next_andThen]
          cases hr : walk k p with
          | none => rw [hr] at this; exact this
          | some q =>
            rw [hr] at this
            obtain ⟨j, hj⟩ := this
            refine ⟨j, ?_⟩
            rw [hj, GoSt.set_comm _ .i x _ _ (Ne.symm hx''), GoSt.set_set, GoSt.set_set]
    · have e0 : iLt i count = false := by rw [← Bool.not_eq_true, iLt_true]; exact hlt
      have e1 : (count - i).toNat = 0 := by omega
      rw [e0, e1, hw0]
      exact stays

/-- `i++`. -/
theorem exec_i {st : GoSt} {i : Int} (h : st.vars .i = .int i) (h' : minInt ≤ i) (h'' : i < maxInt) :
    (GoS.set .i (.bin .add (.var .i) (.int 1))).exec n st = .next (st.set .i (.int (i + 1))) := by
  show (GoOp.apply .add (st.vars .i) (.int 1)).run (fun v => .next (st.set .i v)) = _
  rw [h, add_ints, wrap64_eq (by omega) (by omega)]; rfl

/-- The step of the word loops. -/
def wordStep (c : Bytes) (pos : Int) : Option Int := (scanFwd c isLetter pos).bind (scanFwd c fun x => !isLetter x)
@[inherit_doc wordStep]
def wordBack (c : Bytes) (pos : Int) : Option Int := (scanBack c isLetter pos).bind (scanBack c fun x => !isLetter x)

theorem loop_words {st : GoSt} {c : Bytes} {count pos : Int} (hl : c.length < 4611686018427387904) (hn : c.length < n) (hcount : count ≤ maxInt)
    (h : Counts c count .pos st pos 0) :
    goMoved st .pos (fwdWords c count.toNat pos)
      ((GoS.while (.bin .and (.bin .lt (.var .i) (.var .count)) (.bin .lt (.var .pos) (.len (.var .content)))) (.set .i (.bin .add (.var .i) (.int 1)))
    (.seq (.while (.bin .and (.bin .lt (.var .pos) (.len (.var .content))) (.not (.call1 .isLetter (.index (.var .content) (.var .pos))))) .skip
      (.set .pos (.bin .add (.var .pos) (.int 1)))) <|
    (.while (.bin .and (.bin .lt (.var .pos) (.len (.var .content))) (.call1 .isLetter (.index (.var .content) (.var .pos)))) .skip
      (.set .pos (.bin .add (.var .pos) (.int 1)))))).exec n st) := by
  rw [exec_while]
  have e0 : count.toNat = (count - 0).toNat := by simp
  rw [e0]
  refine loop_count (x := .pos) (c := c) (count := count) (going := fun pos => iLt pos c.length) (step := wordStep c)
    (size := fun pos _ => if pos < 0 then 0 else ((c.length : Int) - pos).toNat) (good := fun _ => True)
    (by decide) (by decide) (by decide) (fun _ => rfl) ?_ ?_ ?_ ?_ n st pos 0 h trivial (by omega) ?_
  · intro k pos
    rw [fwdWords, wordStep]
    simp only [iLt_true]
    congr 1
    cases scanFwd c isLetter pos with
    | none => rfl
    | some p => cases hp : scanFwd c (fun x => !isLetter x) p <;> simp [hp]
  · intro st pos i h
    show (((GoOp.apply .lt (st.vars .i) (st.vars .count)).bind fun v =>
      goShort false v ((GoV.len (st.vars .content)).bind fun w => GoOp.apply .lt (st.vars .pos) w))) = _
    rw [h.i, h.count, h.content, h.pos, lt_ints, GoR.ok_bind, len_str, GoR.ok_bind, lt_ints, goShort_and]
  · intro st pos i h hg hgo hi h0
    rw [exec_seq, loop_fwd (tests_fwd_other .pos) (by decide) hl hn h.content h.pos, wordStep]
    cases hs : scanFwd c isLetter pos with
    | none => rfl
    | some p =>
      simp only [goMove, GoOut.next_andThen, Option.bind_some]
      rw [loop_fwd (c := c) (pos := p) (tests_fwd_letter .pos) (by decide) hl hn
        (by rw [GoSt.set_vars, if_neg (by decide)]; exact h.content) (by rw [GoSt.set_vars, if_pos rfl])]
      cases hs' : scanFwd c (fun x => !isLetter x) p with
      | none => rfl
      | some q =>
        simp only [goMove, GoOut.next_andThen, GoSt.set_set]
        exact exec_i (by rw [GoSt.set_vars, if_neg (by decide)]; exact h.i) (by omega) (by omega)
  · intro pos p i hg hgo hs hi
    rw [iLt_true] at hgo
    by_cases hp : pos < 0
    · rw [wordStep, scanFwd, if_neg (by omega), if_pos hp] at hs; cases hs
    · obtain ⟨k, rfl⟩ := Int.eq_ofNat_of_zero_le (by omega : 0 ≤ pos)
      obtain ⟨m, q, h1, h2, _, h3, h4, h5⟩ := fwdWord_step c k (by omega)
      rw [wordStep, h1, Option.bind_some, h2] at hs
      cases hs
      refine ⟨trivial, ?_⟩
      rw [if_neg (by omega), if_neg (by omega)]
      omega
  · split <;> omega

theorem loop_words_back {st : GoSt} {c : Bytes} {count pos : Int} (hl : c.length < 4611686018427387904) (hn : c.length < n) (hcount : count ≤ maxInt)
    (hpos : pos ≤ maxInt) (h : Counts c count .pos st pos 0) :
    goMoved st .pos (bwdWords c count.toNat pos)
      ((GoS.while (.bin .and (.bin .lt (.var .i) (.var .count)) (.bin .gt (.var .pos) (.int 0))) (.set .i (.bin .add (.var .i) (.int 1)))
    (.seq (.while (.bin .and (.bin .gt (.var .pos) (.int 0)) (.not (.call1 .isLetter (.index (.var .content) (.bin .sub (.var .pos) (.int 1)))))) .skip
      (.set .pos (.bin .sub (.var .pos) (.int 1)))) <|
    (.while (.bin .and (.bin .gt (.var .pos) (.int 0)) (.call1 .isLetter (.index (.var .content) (.bin .sub (.var .pos) (.int 1))))) .skip
      (.set .pos (.bin .sub (.var .pos) (.int 1)))))).exec n st) := by
  rw [exec_while]
  have e0 : count.toNat = (count - 0).toNat := by simp
  rw [e0]
  refine loop_count (x := .pos) (c := c) (count := count) (going := fun pos => iLt 0 pos) (step := wordBack c)
    (size := fun pos _ => if (c.length : Int) < pos then 0 else pos.toNat) (good := fun pos => pos ≤ maxInt)
    (by decide) (by decide) (by decide) (fun _ => rfl) ?_ ?_ ?_ ?_ n st pos 0 h hpos (by omega) ?_
  · intro k pos
    rw [bwdWords, wordBack]
    simp only [iLt_true]
    congr 1
    cases scanBack c isLetter pos with
    | none => rfl
    | some p => cases hp : scanBack c (fun x => !isLetter x) p <;> simp [hp]
  · intro st pos i h
    show (((GoOp.apply .lt (st.vars .i) (st.vars .count)).bind fun v =>
      goShort false v (GoOp.apply .gt (st.vars .pos) (.int 0)))) = _
    rw [h.i, h.count, h.pos, lt_ints, GoR.ok_bind, gt_ints, goShort_and]
  · intro st pos i h hg hgo hi h0
    rw [exec_seq, loop_back (tests_back_other .pos) (by decide) hl hn hg h.content h.pos, wordBack]
    cases hs : scanBack c isLetter pos with
    | none => rfl
    | some p =>
      simp only [goMove, GoOut.next_andThen, Option.bind_some]
      have hp : p ≤ maxInt := by have := scanBack_le hs; omega
      rw [loop_back (c := c) (pos := p) (tests_back_letter .pos) (by decide) hl hn hp
        (by rw [GoSt.set_vars, if_neg (by decide)]; exact h.content) (by rw [GoSt.set_vars, if_pos rfl])]
      cases hs' : scanBack c (fun x => !isLetter x) p with
      | none => rfl
      | some q =>
        simp only [goMove, GoOut.next_andThen, GoSt.set_set]
        exact exec_i (by rw [GoSt.set_vars, if_neg (by decide)]; exact h.i) (by omega) (by omega)
  · intro pos p i hg hgo hs hi
    rw [iLt_true] at hgo
    by_cases hp : (c.length : Int) < pos
    · rw [wordBack, goScan_beyond hp] at hs; cases hs
    · obtain ⟨k, rfl⟩ := Int.eq_ofNat_of_zero_le (by omega : 0 ≤ pos)
      obtain ⟨m, q, h1, h2, h3, h4⟩ := bwdWord_step c k (by omega)
      have h5 := h3.lt (by omega)
      rw [wordBack, h1, Option.bind_some, h2] at hs
      cases hs
      refine ⟨by omega, ?_⟩
      rw [if_neg (by omega), if_neg (by omega)]
      omega
  · split <;> omega

/-- One round of the line loops. -/
theorem exec_line {st : GoSt} {c : Bytes} {pos : Int} (hl : c.length < 4611686018427387904) (hn : c.length < n)
    (hc : st.vars .content = .str c) (hv : st.vars .lineEnd = .int pos) :
    (GoS.seq (.while (.bin .and (.bin .lt (.var .lineEnd) (.len (.var .content))) (.bin .ne (.index (.var .content) (.var .lineEnd)) (.char 10))) .skip
      (.set .lineEnd (.bin .add (.var .lineEnd) (.int 1)))) <|
    (.if_ (.bin .and (.bin .lt (.var .lineEnd) (.len (.var .content))) (.bin .eq (.index (.var .content) (.var .lineEnd)) (.char 10)))
      (.set .lineEnd (.bin .add (.var .lineEnd) (.int 1)))
      .skip)).exec n st = goMove st .lineEnd (lineStep c pos) := by
  rw [exec_seq, loop_fwd (tests_fwd_line .lineEnd) (by decide) hl hn hc hv, lineStep]
  cases hs : scanFwd c (· == nl) pos with
  | none => rfl
  | some p =>
    have hp : 0 ≤ p ∨ (c.length : Int) ≤ p := by
      unfold scanFwd at hs
      split at hs
      · cases hs; omega
      · split at hs
        · cases hs
        · cases hs; omega
    simp only [goMove, GoOut.next_andThen]
    rw [exec_if]
    show ((((GoV.len ((st.set .lineEnd (.int p)).vars .content)).bind fun w => GoOp.apply .lt ((st.set .lineEnd (.int p)).vars .lineEnd) w)).bind fun v =>
      goShort false v ((GoV.index ((st.set .lineEnd (.int p)).vars .content) ((st.set .lineEnd (.int p)).vars .lineEnd)).bind fun w => GoOp.apply .eq w (.byte 10))).run _ = _
    have hc' : (st.set .lineEnd (.int p)).vars .content = .str c := by rw [GoSt.set_vars, if_neg (by decide)]; exact hc
    have hv' : (st.set .lineEnd (.int p)).vars .lineEnd = .int p := by rw [GoSt.set_vars, if_pos rfl]
    rw [hc', hv', len_str, GoR.ok_bind, lt_ints, GoR.ok_bind, index_str]
    by_cases hlt : p < c.length
    · have e0 : iLt p c.length = true := by rw [iLt_true]; exact hlt
      obtain ⟨ch, h1, h2⟩ := goAt_some (c := c) (i := p) (by omega) hlt
      rw [e0, h1, orPanic_some, GoR.ok_bind, GoR.ok_bind, eq_bytes, goShort_and, Bool.true_and, GoR.ok_run, goIf_bool, h2]
      have hb : ((GoS.set .lineEnd (.bin .add (.var .lineEnd) (.int 1))).exec n (st.set .lineEnd (.int p))) = .next (st.set .lineEnd (.int (p + 1))) := by
        show (GoOp.apply .add ((st.set .lineEnd (.int p)).vars .lineEnd) (.int 1)).run (fun v => .next ((st.set .lineEnd (.int p)).set .lineEnd v)) = _
        rw [hv', add_ints, wrap64_eq (by omega) (by omega), GoR.ok_run, GoSt.set_set]
      rw [hb, exec_skip]
      by_cases hnl : ch = nl
      · subst hnl
        have e1 : bEq nl 10 = true := rfl
        rw [e1]
        simp [hlt]
      · have e1 : bEq ch 10 = false := by rw [← Bool.not_eq_true, bEq_true]; exact hnl
        rw [e1]
        simp [hnl]
    · have e0 : iLt p c.length = false := by rw [← Bool.not_eq_true, iLt_true]; exact hlt
      rw [e0, goShort_false]
      simp [GoR.ok_run, goIf_bool, exec_skip, hlt]

theorem loop_lines {st : GoSt} {c : Bytes} {count pos : Int} (hl : c.length < 4611686018427387904) (hn : c.length < n) (hcount : count ≤ maxInt)
    (hn' : count.toNat < n) (h : Counts c count .lineEnd st pos 0) :
    goMoved st .lineEnd (fwdLines c count.toNat pos)
      ((GoS.while (.bin .lt (.var .i) (.var .count)) (.set .i (.bin .add (.var .i) (.int 1)))
    (.seq (.while (.bin .and (.bin .lt (.var .lineEnd) (.len (.var .content))) (.bin .ne (.index (.var .content) (.var .lineEnd)) (.char 10))) .skip
      (.set .lineEnd (.bin .add (.var .lineEnd) (.int 1)))) <|
    (.if_ (.bin .and (.bin .lt (.var .lineEnd) (.len (.var .content))) (.bin .eq (.index (.var .content) (.var .lineEnd)) (.char 10)))
      (.set .lineEnd (.bin .add (.var .lineEnd) (.int 1)))
      .skip))).exec n st) := by
  rw [exec_while]
  have e0 : count.toNat = (count - 0).toNat := by simp
  rw [e0]
  refine loop_count (x := .lineEnd) (c := c) (count := count) (going := fun _ => true) (step := lineStep c)
    (size := fun _ i => (count - i).toNat) (good := fun _ => True)
    (by decide) (by decide) (by decide) (fun _ => rfl) ?_ ?_ ?_ ?_ n st pos 0 h trivial (by omega) (by omega)
  · intro k pos
    rw [fwdLines]
    cases hs : lineStep c pos <;> rfl
  · intro st pos i h
    show GoOp.apply .lt (st.vars .i) (st.vars .count) = _
    rw [h.i, h.count, lt_ints, Bool.and_true]
  · intro st pos i h hg hgo hi h0
    rw [exec_line hl hn h.content h.pos]
    cases hs : lineStep c pos with
    | none => rfl
    | some p =>
      simp only [goMove, GoOut.next_andThen]
      exact exec_i (by rw [GoSt.set_vars, if_neg (by decide)]; exact h.i) (by omega) (by omega)
  · intro pos p i hg hgo hs hi
    exact ⟨trivial, by omega⟩

end Texted
