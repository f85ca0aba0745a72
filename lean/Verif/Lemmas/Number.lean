import Verif.Model.Quote
import Verif.Lemmas.F64
/- Numbers are printed faithfully: `strconv.ParseFloat` reads back what `Number.String` prints. -/
namespace Texted

/-- A decimal digit byte. -/
def IsDig (c : UInt8) : Prop := 48 ≤ c.toNat ∧ c.toNat ≤ 57

theorem digit_ofNat (d : Nat) (h : d < 10) : (UInt8.ofNat (48 + d)).toNat = 48 + d := by
  simp [UInt8.toNat_ofNat']; omega

theorem digitVal_dig {c : UInt8} (h : IsDig c) : digitVal false c = some (c.toNat - 48) := by
  have h1 : (48 : UInt8) ≤ c := by rw [UInt8.le_iff_toNat_le]; exact h.1
  have h2 : c ≤ (57 : UInt8) := by rw [UInt8.le_iff_toNat_le]; exact h.2
  simp [digitVal, h1, h2]

theorem lowerByte_dig {c : UInt8} (h : IsDig c) : lowerByte c = c := by
  have h1 : ¬ (65 : UInt8) ≤ c := by
    rw [UInt8.le_iff_toNat_le]; have := h.2
    simp only [UInt8.reduceToNat]; omega
  simp [lowerByte, h1]

theorem dig_ne {c : UInt8} (h : IsDig c) (k : UInt8) (hk : k.toNat < 48 ∨ 57 < k.toNat) : c ≠ k := by
  intro he; subst he; have := h.1; have := h.2; omega

theorem natDigits_dig (f n : Nat) : ∀ c ∈ natDigits f n, IsDig c := by
  induction f generalizing n with
  | zero => simp [natDigits]
  | succ f ih =>
    intro c hc
    unfold natDigits at hc
    split at hc
    · simp only [List.mem_singleton] at hc
      subst hc
      simp only [IsDig, digit_ofNat n (by omega)]; omega
    · simp only [List.mem_append, List.mem_singleton] at hc
      rcases hc with hc | hc
      · exact ih _ c hc
      · subst hc
        simp only [IsDig, digit_ofNat (n % 10) (by omega)]; omega

theorem natDec_dig (n : Nat) : ∀ c ∈ natDec n, IsDig c := natDigits_dig _ _

theorem natDigits_ne_nil (f n : Nat) : natDigits (f + 1) n ≠ [] := by
  unfold natDigits; split <;> simp

theorem natDec_ne_nil (n : Nat) : natDec n ≠ [] := natDigits_ne_nil _ _

/-- The mantissa before anything is read. -/
def mant0 : Mant := { digits := 0, frac := 0, sawDot := false, sawDigits := false }

theorem mantLoop_cons {c : UInt8} (h : IsDig c) (r : Bytes) (m : Mant) :
    mantLoop false (c :: r) m = mantLoop false r
      { m with digits := m.digits * 10 + (c.toNat - 48), frac := if m.sawDot then m.frac + 1 else m.frac, sawDigits := true } := by
  rw [mantLoop]
  rw [if_neg (dig_ne h 95 (by decide)), if_neg (dig_ne h 46 (by decide)), digitVal_dig h]
  simp

theorem mantLoop_natDigits (f n : Nat) (hn : n < 2 ^ (f + 1)) (rest : Bytes) :
    mantLoop false (natDigits (f + 1) n ++ rest) mant0 =
      mantLoop false rest { digits := n, frac := 0, sawDot := false, sawDigits := true } := by
  induction f generalizing n rest with
  | zero =>
    have h : n < 10 := by omega
    have hd : IsDig (UInt8.ofNat (48 + n)) := by simp only [IsDig, digit_ofNat n h]; omega
    rw [natDigits, if_pos h, List.singleton_append, mantLoop_cons hd, digit_ofNat n h]
    simp [mant0]
  | succ f ih =>
    rw [natDigits]
    split
    · rename_i h
      have hd : IsDig (UInt8.ofNat (48 + n)) := by simp only [IsDig, digit_ofNat n h]; omega
      rw [List.singleton_append, mantLoop_cons hd, digit_ofNat n h]
      simp [mant0]
    · have h : n % 10 < 10 := by omega
      have hd : IsDig (UInt8.ofNat (48 + n % 10)) := by simp only [IsDig, digit_ofNat _ h]; omega
      have hp : 2 ^ (f + 1 + 1) = 2 * 2 ^ (f + 1) := by rw [Nat.pow_succ]; omega
      rw [List.append_assoc, ih (n / 10) (by omega), List.singleton_append, mantLoop_cons hd, digit_ofNat _ h]
      have : n / 10 * 10 + n % 10 = n := by omega
      simp [this]

theorem mantLoop_natDec (n : Nat) (rest : Bytes) :
    mantLoop false (natDec n ++ rest) mant0 =
      mantLoop false rest { digits := n, frac := 0, sawDot := false, sawDigits := true } :=
  mantLoop_natDigits _ n Nat.lt_log2_self rest

theorem expLoop_cons {c : UInt8} (h : IsDig c) (r : Bytes) (e : Nat) :
    expLoop (c :: r) e = expLoop r (if e < 10000 then e * 10 + (c.toNat - 48) else e) := by
  rw [expLoop, if_neg (dig_ne h 95 (by decide)), digitVal_dig h]

theorem expLoop_natDigits (f n : Nat) (hn : n < 2 ^ (f + 1)) (hs : n < 100000) (rest : Bytes) :
    expLoop (natDigits (f + 1) n ++ rest) 0 = expLoop rest n := by
  induction f generalizing n rest with
  | zero =>
    have h : n < 10 := by omega
    have hd : IsDig (UInt8.ofNat (48 + n)) := by simp only [IsDig, digit_ofNat n h]; omega
    rw [natDigits, if_pos h, List.singleton_append, expLoop_cons hd, digit_ofNat n h]
    simp
  | succ f ih =>
    rw [natDigits]
    split
    · rename_i h
      have hd : IsDig (UInt8.ofNat (48 + n)) := by simp only [IsDig, digit_ofNat n h]; omega
      rw [List.singleton_append, expLoop_cons hd, digit_ofNat n h]
      simp
    · have h : n % 10 < 10 := by omega
      have hd : IsDig (UInt8.ofNat (48 + n % 10)) := by simp only [IsDig, digit_ofNat _ h]; omega
      have hp : 2 ^ (f + 1 + 1) = 2 * 2 ^ (f + 1) := by rw [Nat.pow_succ]; omega
      rw [List.append_assoc, ih (n / 10) (by omega) (by omega), List.singleton_append, expLoop_cons hd, digit_ofNat _ h]
      rw [if_pos (by omega)]
      have : n / 10 * 10 + n % 10 = n := by omega
      simp [this]

theorem readExp_minus (n : Nat) (hs : n < 100000) : readExp (45 :: natDec n) = some (-(n : Int)) := by
  have h := expLoop_natDigits n.log2 n Nat.lt_log2_self hs []
  rw [List.append_nil] at h
  have h' : expLoop (natDec n) 0 = (n, []) := by rw [natDec, h]; rfl
  cases hd : natDec n with
  | nil => exact absurd hd (natDec_ne_nil n)
  | cons c r =>
    have hc : IsDig c := natDec_dig n c (by rw [hd]; simp)
    rw [hd] at h'
    simp [readExp, digitVal_dig hc, h']

/-- The sign of a printed number. -/
def signText (neg : Bool) : Bytes := if neg then b! "-" else []

theorem parseSpecial_dig (neg : Bool) (c : UInt8) (r : Bytes) (h : IsDig c) :
    parseSpecial (signText neg ++ c :: r) = none := by
  have hl := lowerByte_dig h
  have e1 : ∀ k : UInt8, (k.toNat < 48 ∨ 57 < k.toNat) → lowerByte c ≠ k := fun k hk => by rw [hl]; exact dig_ne h k hk
  have a1 := e1 110 (by decide)
  have a2 := e1 105 (by decide)
  have a3 := e1 43 (by decide)
  have a4 := e1 45 (by decide)
  have a5 : lowerByte 45 = 45 := by decide
  cases neg <;> simp [parseSpecial, signText, a1, a2, a3, a4, a5]

theorem readSign_dig (neg : Bool) (c : UInt8) (r : Bytes) (h : IsDig c) :
    readSign (signText neg ++ c :: r) = (neg, c :: r) := by
  have a3 := dig_ne h 43 (by decide)
  have a4 := dig_ne h 45 (by decide)
  cases neg
  · simp only [signText, Bool.false_eq_true, if_false, List.nil_append]
    unfold readSign
    split
    · simp_all
    · simp_all
    · rfl
  · rfl

/-- A decimal text: sign, digits, optional exponent. -/
theorem readFloat_text (neg : Bool) (n : Nat) (tail : Bytes) (e : Int)
    (ht : (tail = [] ∧ e = 0) ∨ (∃ t, tail = 101 :: t ∧ readExp t = some e))
    (hplain : ∀ c ∈ tail, c ≠ 95 ∧ c ≠ 120 ∧ c ≠ 88) :
    readFloat (signText neg ++ natDec n ++ tail) = some (scaled neg n 10 e) := by
  have hm := mantLoop_natDec n tail
  cases hd : natDec n with
  | nil => exact absurd hd (natDec_ne_nil n)
  | cons c r =>
    have hc : IsDig c := natDec_dig n c (by rw [hd]; simp)
    have hall : ∀ x ∈ c :: (r ++ tail), x ≠ 95 ∧ x ≠ 120 ∧ x ≠ 88 := by
      intro x hx
      have hx' : x ∈ natDec n ++ tail := by rw [hd]; simpa using hx
      rcases List.mem_append.1 hx' with h | h
      · have := natDec_dig n x h
        exact ⟨dig_ne this _ (by decide), dig_ne this _ (by decide), dig_ne this _ (by decide)⟩
      · exact hplain x h
    have hstop : mantLoop false tail { digits := n, frac := 0, sawDot := false, sawDigits := true } =
        ({ digits := n, frac := 0, sawDot := false, sawDigits := true }, tail) := by
      rcases ht with ⟨h, _⟩ | ⟨t, h, _⟩
      · subst h; rfl
      · subst h
        rw [mantLoop]
        have : digitVal false 101 = none := by decide
        rw [this]; simp
    rw [hstop, hd, List.cons_append] at hm
    rw [List.append_assoc, List.cons_append]
    have hx : ∀ x, x ∈ c :: (r ++ tail) → lowerByte x ≠ 120 := by
      intro x hx
      have := hall x hx
      unfold lowerByte
      split
      · rename_i hb
        intro h
        apply this.2.2
        rw [← UInt8.toNat_inj] at h ⊢
        rw [UInt8.toNat_add] at h
        have h1 := UInt8.le_iff_toNat_le.1 hb.1
        have h2 := UInt8.le_iff_toNat_le.1 hb.2
        simp only [UInt8.reduceToNat] at *
        omega
      · exact this.2.1
    have hhex : hexPrefix (c :: (r ++ tail)) = (false, c :: (r ++ tail)) := by
      unfold hexPrefix
      split
      · rename_i x y r' heq
        simp only [List.cons.injEq] at heq
        rw [if_neg (hx x (by rw [heq.2]; simp))]
      · rfl
    have hcont : (signText neg ++ c :: (r ++ tail)).contains 95 = false := by
      rw [List.contains_eq_mem, decide_eq_false_iff_not]
      intro hmem
      rcases List.mem_append.1 hmem with h | h
      · cases neg <;> simp [signText] at h
      · exact (hall 95 h).1 rfl
    unfold readFloat
    rw [readSign_dig neg c _ hc]
    simp only [hhex]
    rw [show ({ digits := 0, frac := 0, sawDot := false, sawDigits := false } : Mant) = mant0 from rfl, hm]
    simp only [Bool.not_true, Bool.false_eq_true, if_false, hcont, Bool.false_and]
    rcases ht with ⟨h, he⟩ | ⟨t, h, he⟩
    · subst h; subst he; simp
    · subst h
      have : lowerByte 101 = 101 := by decide
      simp [this, he]

theorem parseFloat_text (neg : Bool) (n : Nat) (tail : Bytes) (e : Int) (x : F64)
    (ht : (tail = [] ∧ e = 0) ∨ (∃ t, tail = 101 :: t ∧ readExp t = some e))
    (hplain : ∀ c ∈ tail, c ≠ 95 ∧ c ≠ 120 ∧ c ≠ 88) (hs : scaled neg n 10 e = x) (hx : ∀ b, x ≠ .inf b) :
    parseFloat (signText neg ++ natDec n ++ tail) = some x := by
  have h1 : parseSpecial (signText neg ++ natDec n ++ tail) = none := by
    cases hd : natDec n with
    | nil => exact absurd hd (natDec_ne_nil n)
    | cons c r =>
      have hc : IsDig c := natDec_dig n c (by rw [hd]; simp)
      rw [List.append_assoc, List.cons_append]
      exact parseSpecial_dig neg c _ hc
  unfold parseFloat
  rw [h1, readFloat_text neg n tail e ht hplain, hs]
  simp only
  split
  · rename_i b h; simp only [Option.some.injEq] at h; exact absurd h (hx _)
  · rfl

/-- A whole number prints and reads back. -/
theorem parseFloat_whole (neg : Bool) (m : Nat) (e : Int) (hc : F64.Canon (.fin neg m e)) (he : 0 ≤ e) :
    parseFloat (signText neg ++ natDec (m * 2 ^ e.toNat)) = some (.fin neg m e) := by
  have := parseFloat_text neg (m * 2 ^ e.toNat) [] 0 (.fin neg m e) (Or.inl ⟨rfl, rfl⟩) (by simp) ?_ (by simp)
  · simpa using this
  · simp only [scaled, Int.le_refl, if_true, Int.toNat_zero, Nat.pow_zero, Nat.mul_one]
    rcases hc with ⟨h, h'⟩ | ⟨h1, h2, h3, h4⟩
    · subst h; subst h'; simp [F64.roundRat]
    · rw [F64.roundRat_exact neg _ 1 m 0 e.toNat (by simp) (by simp) h1 h2 (by omega) (by omega)]
      congr 1; omega

theorem exactText_parse (neg : Bool) (m : Nat) (e : Int) (hc : F64.Canon (.fin neg m e)) :
    parseFloat (exactText neg m e) = some (.fin neg m e) := by
  unfold exactText
  rw [show (if neg = true then b! "-" else []) = signText neg from rfl]
  split
  · exact parseFloat_whole neg m e hc ‹_›
  · rename_i he
    rcases hc with ⟨h, h'⟩ | ⟨h1, h2, h3, h4⟩
    · omega
    · have hk : (-e).toNat < 100000 := by omega
      have hlt : ∀ c ∈ (101 : UInt8) :: 45 :: natDec (-e).toNat, c ≠ 95 ∧ c ≠ 120 ∧ c ≠ 88 := by
        intro c hc
        simp only [List.mem_cons] at hc
        rcases hc with rfl | rfl | hc
        · decide
        · decide
        · have := natDec_dig _ c hc
          exact ⟨dig_ne this _ (by decide), dig_ne this _ (by decide), dig_ne this _ (by decide)⟩
      have := parseFloat_text neg (m * 5 ^ (-e).toNat) (101 :: 45 :: natDec (-e).toNat) (-((-e).toNat : Int)) (.fin neg m e)
        (Or.inr ⟨_, rfl, readExp_minus _ hk⟩) hlt ?_ (by simp)
      · simpa using this
      · have hpos : ¬ 0 ≤ -((-e).toNat : Int) := by omega
        simp only [scaled, hpos, if_false]
        have : (- -((-e).toNat : Int)).toNat = (-e).toNat := by omega
        rw [this]
        rw [F64.roundRat_exact neg _ _ m (-e).toNat 0 ?_ (by
          have : 0 < 10 ^ (-e).toNat := Nat.pow_pos (by decide)
          omega) h1 h2 (by omega) (by omega)]
        · congr 1; omega
        · rw [show (10 : Nat) = 5 * 2 from rfl, Nat.mul_pow]; simp only [Nat.pow_zero]; ac_rfl

theorem fmtG_parse (x : F64) (hc : x.Canon) : parseFloat (fmtG x) = some x := by
  cases x with
  | nan => rfl
  | inf b => cases b <;> rfl
  | fin neg m e =>
    unfold fmtG
    simp only
    split
    · rename_i h
      have : e = 0 := by
        rcases hc with ⟨_, h'⟩ | ⟨h1, _⟩
        · exact h'
        · omega
      subst h; subst this
      cases neg <;> rfl
    · generalize ((List.range 17).flatMap _) = texts
      cases hf : texts.find? fun t => parseFloat t = some (.fin neg m e) with
      | none => simp only [Option.getD_none]; exact exactText_parse neg m e hc
      | some t => simpa using List.find?_some hf


theorem F64.strip_ge (f q : Nat) (e : Int) : e ≤ (F64.strip f q e).2 := by
  induction f generalizing q e with
  | zero => simp [F64.strip]
  | succ f ih =>
    unfold F64.strip
    split
    · have := ih (q / 2) (e + 1); omega
    · simp

/-- A converted integer is a whole number. -/
theorem F64.ofInt_whole (n : Int) (neg : Bool) (m : Nat) (e : Int) (h : F64.ofInt n = .fin neg m e) : 0 ≤ e := by
  by_cases h0 : n = 0
  · subst h0; rw [F64.ofInt_zero] at h; cases h; simp
  · by_cases hs : n.natAbs < 9007199254740992
    · obtain ⟨m', j, hmj, hodd⟩ := F64.exists_odd n.natAbs (by omega)
      have hm : m' ≤ m' * 2 ^ j := Nat.le_mul_of_pos_right _ (Nat.two_pow_pos _)
      have hj : j ≤ 53 := by
        apply Decidable.byContradiction
        intro hc
        have : 2 ^ 54 ≤ 2 ^ j := Nat.pow_le_pow_right (by omega) (by omega)
        have : 2 ^ j ≤ m' * 2 ^ j := Nat.le_mul_of_pos_left _ (by omega)
        omega
      rw [F64.ofInt_pow n m' j hmj hodd (by omega) (by omega)] at h
      cases h; omega
    · have hl : 53 ≤ n.natAbs.log2 := by
        rw [Nat.le_log2 (by omega)]; omega
      have he : 0 ≤ F64.roundExp n.natAbs 1 := by
        unfold F64.roundExp
        have h1 : Nat.log2 1 = 0 := by decide
        simp only [h1]
        split <;> split <;> omega
      unfold F64.ofInt F64.roundRat at h
      rw [if_neg (by omega : ¬ n.natAbs = 0)] at h
      simp only at h
      have hmk : ∀ q e, 0 ≤ e → ∀ a b c, F64.mk (decide (n < 0)) q e = .fin a b c → 0 ≤ c := by
        intro q e he a b c hq
        unfold F64.mk at hq
        split at hq
        · cases hq; simp
        · cases hq; have := F64.strip_ge q.log2 q e; omega
      split at h
      · split at h
        · cases h
        · exact hmk _ _ he _ _ _ h
      · rename_i hne
        exact absurd h (hne _ _ _)

theorem numString_fin [Ext] (neg : Bool) (m : Nat) (e : Int)
    (h : F64.goEq (.fin neg m e) (F64.ofInt (F64.toInt (.fin neg m e))) = true) (hc : F64.Canon (.fin neg m e)) :
    0 ≤ e := by
  rcases hc with ⟨h1, h2⟩ | ⟨h1, h2, h3, h4⟩
  · omega
  · cases hr : F64.ofInt (F64.toInt (.fin neg m e)) with
    | nan => rw [hr] at h; simp [F64.goEq] at h
    | inf b => rw [hr] at h; simp [F64.goEq] at h
    | fin a b c =>
      have := F64.ofInt_whole _ _ _ _ hr
      rw [hr] at h
      simp only [F64.goEq, Bool.or_eq_true, Bool.and_eq_true, beq_iff_eq] at h
      rcases h with ⟨h, _⟩ | ⟨_, h⟩ <;> omega

/-- `ParseFloat` reads back what `Number.String` prints, for every float64. -/
theorem parseFloat_numString [Ext] (x : F64) (hc : x.Canon) : parseFloat (numString x) = some x := by
  unfold numString
  split
  · rename_i h
    cases x with
    | nan => rfl
    | inf b => cases b <;> rfl
    | fin neg m e =>
      have he := numString_fin neg m e h hc
      unfold F64.fmtF0
      simp only [he, if_true]
      exact parseFloat_whole neg m e hc he
  · exact fmtG_parse x hc

/-- Bytes of printed numbers: visible ASCII, no delimiter of the script syntax. -/
def TokByte (c : UInt8) : Prop := 32 < c.toNat ∧ c.toNat < 127 ∧ c ≠ 34 ∧ c ≠ 40 ∧ c ≠ 41 ∧ c ≠ 59 ∧ c ≠ 92

theorem IsDig.tok {c : UInt8} (h : IsDig c) : TokByte c := by
  refine ⟨?_, ?_, dig_ne h _ (by decide), dig_ne h _ (by decide), dig_ne h _ (by decide), dig_ne h _ (by decide), dig_ne h _ (by decide)⟩
  · have := h.1; omega
  · have := h.2; omega

/-- All bytes of a string satisfy `TokByte`. -/
def TokAll (s : Bytes) : Prop := ∀ c ∈ s, TokByte c

theorem TokAll.nil : TokAll [] := by simp [TokAll]
theorem TokAll.append {s t : Bytes} (hs : TokAll s) (ht : TokAll t) : TokAll (s ++ t) := by
  intro c hc
  rcases List.mem_append.1 hc with h | h
  · exact hs c h
  · exact ht c h
theorem TokAll.natDec (n : Nat) : TokAll (natDec n) := fun c h => (natDec_dig n c h).tok
theorem TokAll.take {s : Bytes} (hs : TokAll s) (n : Nat) : TokAll (s.take n) := fun c h => hs c (List.mem_of_mem_take h)
theorem TokAll.drop {s : Bytes} (hs : TokAll s) (n : Nat) : TokAll (s.drop n) := fun c h => hs c (List.mem_of_mem_drop h)
theorem TokAll.zeros (n : Nat) : TokAll (zeros n) := by
  intro c h
  rw [Texted.zeros, List.mem_replicate] at h
  rw [h.2]; unfold TokByte; decide
theorem TokAll.lit (s : Bytes) (h : (s.all fun c => decide (32 < c.toNat ∧ c.toNat < 127 ∧ c ≠ 34 ∧ c ≠ 40 ∧ c ≠ 41 ∧ c ≠ 59 ∧ c ≠ 92)) = true) :
    TokAll s := by
  intro c hc
  have := List.all_eq_true.1 h c hc
  simpa [TokByte] using this
theorem TokAll.ite {p : Prop} [Decidable p] {s t : Bytes} (hs : TokAll s) (ht : TokAll t) : TokAll (if p then s else t) := by
  split
  · exact hs
  · exact ht

theorem kDigits_tok (num den k : Nat) (o : Bool) : TokAll (kDigits num den k o).1 := by
  unfold kDigits
  simp only
  repeat' split
  all_goals first | exact TokAll.natDec _ | exact TokAll.lit _ rfl

theorem fmtDigits_tok (neg : Bool) (ds : Bytes) (dp : Int) (h : TokAll ds) : TokAll (fmtDigits neg ds dp) := by
  unfold fmtDigits fmtE fmtF
  repeat' first
    | exact TokAll.nil
    | exact TokAll.natDec _
    | apply TokAll.append
    | apply TokAll.ite
    | exact TokAll.zeros _
    | exact h.take _
    | exact h.drop _
    | exact TokAll.lit _ rfl

theorem exactText_tok (neg : Bool) (m : Nat) (e : Int) : TokAll (exactText neg m e) := by
  unfold exactText
  repeat' first
    | exact TokAll.nil
    | exact TokAll.natDec _
    | apply TokAll.append
    | apply TokAll.ite
    | exact TokAll.lit _ rfl

theorem fmtG_tok (x : F64) : TokAll (fmtG x) := by
  cases x with
  | nan => exact TokAll.lit _ rfl
  | inf b => exact TokAll.ite (TokAll.lit _ rfl) (TokAll.lit _ rfl)
  | fin neg m e =>
    unfold fmtG
    simp only
    split
    · exact TokAll.ite (TokAll.lit _ rfl) (TokAll.lit _ rfl)
    · cases hf : List.find? _ _ with
      | none => exact exactText_tok neg m e
      | some t =>
        have := List.mem_of_find?_eq_some hf
        rw [List.mem_flatMap] at this
        obtain ⟨k, _, this⟩ := this
        rw [List.mem_map] at this
        obtain ⟨o, _, hk⟩ := this
        simp only [Option.getD_some]
        rw [← hk]
        exact fmtDigits_tok _ _ _ (kDigits_tok _ _ _ _)

theorem numString_tok [Ext] (x : F64) : TokAll (numString x) := by
  unfold numString
  split
  · cases x with
    | nan => exact TokAll.lit _ rfl
    | inf b => exact TokAll.ite (TokAll.lit _ rfl) (TokAll.lit _ rfl)
    | fin neg m e =>
      unfold F64.fmtF0
      exact TokAll.append (TokAll.ite (TokAll.lit _ rfl) TokAll.nil) (TokAll.natDec _)
  · exact fmtG_tok x

theorem parseFloat_nil : parseFloat [] = none := rfl

theorem numString_ne_nil [Ext] (x : F64) (hc : x.Canon) : numString x ≠ [] := by
  intro h
  have := parseFloat_numString x hc
  rw [h, parseFloat_nil] at this
  cases this

end Texted
