import Verif.Spec.Number
import Verif.Lemmas.Round
import Verif.Lemmas.Number
/- strconv.ParseFloat reads exactly the number texts of Spec/Number.lean. -/
namespace Texted
open Spec

/-- The base of the digits. -/
def baseOf (hex : Bool) : Nat := if hex then 16 else 10

theorem digitVal_iff (hex : Bool) (c : UInt8) (d : Nat) :
    digitVal hex c = some d ↔ digit? (Char.ofNat c.toNat) = some d ∧ d < baseOf hex := by
  have h : ∀ n, n < 256 → digitVal hex (UInt8.ofNat n) = (digit? (Char.ofNat n)).filter (fun d => decide (d < baseOf hex)) := by
    cases hex <;> decide +kernel
  have h1 := h c.toNat c.toNat_lt
  rw [UInt8.ofNat_toNat] at h1
  rw [h1, Option.filter_eq_some_iff]
  simp

theorem digitVal_isSome (hex : Bool) (c : UInt8) : (digitVal hex c).isSome = true ↔ IsDigit (baseOf hex) c := by
  rw [Option.isSome_iff_exists]
  exact exists_congr fun d => digitVal_iff hex c d

theorem digitVal_none (hex : Bool) (c : UInt8) : digitVal hex c = none ↔ ¬ IsDigit (baseOf hex) c := by
  rw [← digitVal_isSome]; cases digitVal hex c <;> simp

theorem digitVal_getD {hex : Bool} {c : UInt8} {d : Nat} (h : digitVal hex c = some d) : (digit? (Char.ofNat c.toNat)).getD 0 = d := by
  rw [((digitVal_iff hex c d).1 h).1]; rfl

theorem digit_table : ∀ n ∈ [95, 46, 43, 45, 112, 80, 120, 88, 110, 78, 105, 73], (digit? (Char.ofNat n)).isSome = false := by decide +kernel

/-- Bytes that are not digits. -/
theorem isDigit_ne {base : Nat} {c : UInt8} (h : IsDigit base c) {n : UInt8} (hn : n.toNat ∈ [95, 46, 43, 45, 112, 80, 120, 88, 110, 78, 105, 73]) :
    c ≠ n := by
  rintro rfl
  obtain ⟨d, hd, _⟩ := h
  have := digit_table _ hn
  rw [hd] at this
  cases this

theorem decimal_table : ∀ n, n < 256 → (((digit? (Char.ofNat n)).any fun d => decide (d < 10)) = true ↔ 48 ≤ n ∧ n ≤ 57) := by decide +kernel

theorem isDigit_ten (c : UInt8) : IsDigit 10 c ↔ 48 ≤ c.toNat ∧ c.toNat ≤ 57 := by
  rw [← decimal_table c.toNat c.toNat_lt, IsDigit]
  cases digit? (Char.ofNat c.toNat) <;> simp

/-- The mantissa behind a run of digits. -/
def Mant.run (hex : Bool) (m : Mant) (ds : Bytes) : Mant where
  digits := (digitsOnly ds).foldl (fun v c => v * baseOf hex + (digit? (Char.ofNat c.toNat)).getD 0) m.digits
  frac := if m.sawDot then m.frac + (digitsOnly ds).length else m.frac
  sawDot := m.sawDot
  sawDigits := m.sawDigits || decide (digitsOnly ds ≠ [])

theorem ch_underscore : ch '_' = 95 := rfl
theorem ch_dot : ch '.' = 46 := rfl

theorem digitsOnly_cons_us (ds : Bytes) : digitsOnly (95 :: ds) = digitsOnly ds := by
  simp [digitsOnly, ch_underscore]

theorem digitsOnly_cons {c : UInt8} (h : c ≠ 95) (ds : Bytes) : digitsOnly (c :: ds) = c :: digitsOnly ds := by
  simp [digitsOnly, ch_underscore, h]

theorem digitsOnly_append (a b : Bytes) : digitsOnly (a ++ b) = digitsOnly a ++ digitsOnly b := by simp [digitsOnly]

theorem mantLoop_run (hex : Bool) (ds r : Bytes) (h : DigitRun (baseOf hex) ds) : ∀ m : Mant,
    mantLoop hex (ds ++ r) m = mantLoop hex r (m.run hex ds) := by
  induction ds with
  | nil => intro m; simp [Mant.run, digitsOnly]
  | cons c ds ih =>
    intro m
    have ih := ih fun c hc => h c (by simp [hc])
    by_cases hu : c = 95
    · subst hu
      rw [List.cons_append, mantLoop, if_pos rfl, ih]
      simp only [Mant.run, digitsOnly_cons_us]
    · have hd := (h c (by simp)).resolve_right hu
      have hdot : c ≠ 46 := isDigit_ne hd (by decide)
      rw [List.cons_append, mantLoop, if_neg hu, if_neg hdot]
      cases hv : digitVal hex c with
      | none => exact absurd hd ((digitVal_none hex c).1 hv)
      | some d =>
        simp only
        rw [ih]
        congr 1
        simp only [Mant.run, digitsOnly_cons hu, List.foldl_cons, digitVal_getD hv, List.length_cons]
        cases hex <;> cases m.sawDot <;> simp [baseOf, Nat.add_assoc, Nat.add_comm]

theorem mantLoop_stop (hex : Bool) (r : Bytes) (m : Mant) (h : ∀ c ∈ r.head?, ¬ IsDigit (baseOf hex) c ∧ c ≠ 95 ∧ (c = 46 → m.sawDot = true)) :
    mantLoop hex r m = (m, r) := by
  cases r with
  | nil => rfl
  | cons c r =>
    obtain ⟨h1, h2, h3⟩ := h c (by simp)
    rw [mantLoop, if_neg h2]
    by_cases hd : c = 46
    · rw [if_pos hd, if_pos (h3 hd)]
    · rw [if_neg hd, (digitVal_none hex c).2 h1]

/-- Every text is a run of digits and something else. -/
theorem exists_run (base : Nat) (t : Bytes) : ∃ ds r, t = ds ++ r ∧ DigitRun base ds ∧ ∀ c ∈ r.head?, ¬ IsDigit base c ∧ c ≠ 95 := by
  induction t with
  | nil => exact ⟨[], [], rfl, fun c h => (nomatch h), fun c h => (nomatch h)⟩
  | cons c t ih =>
    obtain ⟨ds, r, h1, h2, h3⟩ := ih
    by_cases hc : IsDigit base c ∨ c = 95
    · refine ⟨c :: ds, r, by rw [h1]; rfl, ?_, h3⟩
      intro x hx
      rcases List.mem_cons.1 hx with rfl | hx
      · exact hc
      · exact h2 x hx
    · refine ⟨[], c :: t, rfl, fun c h => (nomatch h), ?_⟩
      intro x hx
      simp only [List.head?_cons, Option.mem_def, Option.some.injEq] at hx
      subst hx
      exact ⟨fun h => hc (.inl h), fun h => hc (.inr h)⟩

/-- The mantissa before anything is read. -/
def Mant.zero : Mant := { digits := 0, frac := 0, sawDot := false, sawDigits := false }

theorem numeral_bytes (base : Nat) (t : Bytes) :
    runValue base t = (digitsOnly t).foldl (fun v c => v * base + (digit? (Char.ofNat c.toNat)).getD 0) 0 := by
  rw [runValue, numeral, List.foldl_map]

theorem mant_sound (hex : Bool) (t : Bytes) (h : (mantLoop hex t .zero).1.sawDigits = true) :
    ∃ mant ex, t = mant ++ ex ∧ MantissaText (baseOf hex) mant (mantLoop hex t .zero).1.digits (mantLoop hex t .zero).1.frac ∧
      (mantLoop hex t .zero).2 = ex ∧ ∀ c ∈ ex.head?, ¬ IsDigit (baseOf hex) c ∧ c ≠ 95 := by
  obtain ⟨i, r, rfl, hi, hr⟩ := exists_run (baseOf hex) t
  rw [mantLoop_run hex i r hi] at h ⊢
  by_cases hdot : r.head? = some 46
  · obtain ⟨r, rfl⟩ : ∃ r', r = 46 :: r' := by
      cases r with
      | nil => cases hdot
      | cons c r => simp only [List.head?_cons, Option.some.injEq] at hdot; exact ⟨r, by rw [hdot]⟩
    rw [mantLoop, if_neg (by decide), if_pos rfl] at h ⊢
    rw [if_neg (by simp [Mant.run, Mant.zero])] at h ⊢
    obtain ⟨f, u, rfl, hf, hu⟩ := exists_run (baseOf hex) r
    rw [mantLoop_run hex f u hf, mantLoop_stop hex u _ (fun c hc => ⟨(hu c hc).1, (hu c hc).2, fun _ => rfl⟩)] at h ⊢
    refine ⟨i ++ 46 :: f, u, by simp, ⟨i, f, .inr rfl, ?_, ?_, ?_, ?_⟩, rfl, hu⟩
    · intro c hc
      rcases List.mem_append.1 hc with hc | hc
      · exact hi c hc
      · exact hf c hc
    · rw [digitsOnly_append]
      simpa [Mant.run, Mant.zero, imp_iff_not_or] using h
    · rw [numeral_bytes, digitsOnly_append, List.foldl_append]; rfl
    · simp [Mant.run, Mant.zero]
  · rw [mantLoop_stop hex r _ (fun c hc => ⟨(hr c hc).1, (hr c hc).2, fun h46 => absurd (h46 ▸ hc) hdot⟩)] at h ⊢
    refine ⟨i, r, rfl, ⟨i, [], .inl ⟨rfl, rfl⟩, ?_, ?_, ?_, ?_⟩, rfl, hr⟩
    · simpa using hi
    · simpa [Mant.run, Mant.zero] using h
    · rw [List.append_nil, numeral_bytes]; rfl
    · simp [Mant.run, Mant.zero, digitsOnly]

theorem mant_complete (hex : Bool) (mant ex : Bytes) (n frac : Nat) (h : MantissaText (baseOf hex) mant n frac)
    (hex' : ∀ c ∈ ex.head?, ¬ IsDigit (baseOf hex) c ∧ c ≠ 95 ∧ c ≠ 46) :
    (mantLoop hex (mant ++ ex) .zero).1.sawDigits = true ∧ (mantLoop hex (mant ++ ex) .zero).1.digits = n ∧
    (mantLoop hex (mant ++ ex) .zero).1.frac = frac ∧ (mantLoop hex (mant ++ ex) .zero).2 = ex := by
  obtain ⟨i, f, ht, hrun, hne, rfl, rfl⟩ := h
  have hi : DigitRun (baseOf hex) i := fun c hc => hrun c (by simp [hc])
  have hf : DigitRun (baseOf hex) f := fun c hc => hrun c (by simp [hc])
  rcases ht with ⟨rfl, rfl⟩ | rfl
  · rw [mantLoop_run hex mant ex hi, mantLoop_stop hex ex _ (fun c hc => ⟨(hex' c hc).1, (hex' c hc).2.1, fun h => absurd h (hex' c hc).2.2⟩)]
    rw [List.append_nil] at *
    refine ⟨by simpa [Mant.run, Mant.zero] using hne, ?_, by simp [Mant.run, Mant.zero, digitsOnly], rfl⟩
    rw [numeral_bytes]; rfl
  · have e : i ++ ch '.' :: f ++ ex = i ++ (46 :: (f ++ ex)) := by simp [ch_dot]
    rw [e, mantLoop_run hex i _ hi, mantLoop, if_neg (by decide), if_pos rfl, if_neg (by simp [Mant.run, Mant.zero]),
      mantLoop_run hex f ex hf,
      mantLoop_stop hex ex _ (fun c hc => ⟨(hex' c hc).1, (hex' c hc).2.1, fun h => absurd h (hex' c hc).2.2⟩)]
    refine ⟨?_, ?_, by simp [Mant.run, Mant.zero], rfl⟩
    · rw [digitsOnly_append] at hne
      simpa [Mant.run, Mant.zero, imp_iff_not_or] using hne
    · rw [numeral_bytes, digitsOnly_append, List.foldl_append]; rfl

/-! ### Sign, exponent, prefix -/

theorem ch_plus : ch '+' = 43 := rfl
theorem ch_minus : ch '-' = 45 := rfl

theorem readSign_append {sg : Bytes} {neg : Bool} (h : SignText sg neg) (r : Bytes) (hr : ∀ c ∈ r.head?, c ≠ 43 ∧ c ≠ 45) :
    readSign (sg ++ r) = (neg, r) := by
  cases h with
  | none =>
    rw [List.nil_append]
    unfold readSign
    split
    · exact absurd rfl (hr 43 (by simp)).1
    · exact absurd rfl (hr 45 (by simp)).2
    · rfl
  | plus => rfl
  | minus => rfl

theorem readSign_sound (t : Bytes) : ∃ sg, SignText sg (readSign t).1 ∧ t = sg ++ (readSign t).2 := by
  unfold readSign
  split
  · exact ⟨_, .plus, rfl⟩
  · exact ⟨_, .minus, rfl⟩
  · exact ⟨_, .none, rfl⟩

theorem expLoop_run (ds r : Bytes) (h : DigitRun 10 ds) : ∀ e : Nat,
    expLoop (ds ++ r) e = expLoop r ((digitsOnly ds).foldl (fun e c => if e < 10000 then e * 10 + (digit? (Char.ofNat c.toNat)).getD 0 else e) e) := by
  induction ds with
  | nil => intro e; rfl
  | cons c ds ih =>
    intro e
    have ih := ih fun c hc => h c (by simp [hc])
    by_cases hu : c = 95
    · subst hu
      rw [List.cons_append, expLoop, if_pos rfl, ih, digitsOnly_cons_us]
    · have hd := (h c (by simp)).resolve_right hu
      rw [List.cons_append, expLoop, if_neg hu]
      cases hv : digitVal false c with
      | none => exact absurd hd ((digitVal_none false c).1 hv)
      | some d =>
        simp only
        rw [ih, digitsOnly_cons hu, List.foldl_cons, digitVal_getD hv]

theorem expLoop_stop (r : Bytes) (e : Nat) (h : ∀ c ∈ r.head?, ¬ IsDigit 10 c ∧ c ≠ 95) : expLoop r e = (e, r) := by
  cases r with
  | nil => rfl
  | cons c r =>
    obtain ⟨h1, h2⟩ := h c (by simp)
    rw [expLoop, if_neg h2, (digitVal_none false c).2 h1]

open scoped Classical in
theorem readExp_eq (s : Bytes) : readExp s = match (readSign s).2 with
    | [] => none
    | c :: r => if IsDigit 10 c then
        (if (expLoop (c :: r) 0).2 = [] then some (if (readSign s).1 then -((expLoop (c :: r) 0).1 : Int) else (expLoop (c :: r) 0).1) else none)
      else none := by
  have e : readExp s = match (readSign s).2 with
    | [] => none
    | c :: r => match digitVal false c with
      | none => none
      | some _ =>
        (if (expLoop (c :: r) 0).2 = [] then some (if (readSign s).1 then -((expLoop (c :: r) 0).1 : Int) else (expLoop (c :: r) 0).1) else none) := by
    unfold readExp
    change (match readSign s with
      | (neg, s) => match s with
        | [] => none
        | c :: _ => match digitVal false c with
          | none => none
          | some _ => (if (expLoop s 0).2 = [] then some (if neg then -((expLoop s 0).1 : Int) else (expLoop s 0).1) else none)) = _
    rcases readSign s with ⟨neg, t⟩
    cases t <;> rfl
  rw [e]
  split
  · rfl
  · next c r _ =>
    cases hv : digitVal false c with
    | none => rw [if_neg (show ¬ IsDigit 10 c from (digitVal_none false c).1 hv)]
    | some d => rw [if_pos (show IsDigit 10 c from (digitVal_isSome false c).1 (by rw [hv]; rfl))]

theorem readExp_iff (s : Bytes) (k : Int) : readExp s = some k ↔
    ∃ sg neg ds, s = sg ++ ds ∧ SignText sg neg ∧ DigitRun 10 ds ∧ (∃ c ∈ ds.head?, IsDigit 10 c) ∧
      k = if neg then -(exponentValue ds : Int) else exponentValue ds := by
  rw [readExp_eq]
  constructor
  · intro h
    obtain ⟨sg, hsg, ht⟩ := readSign_sound s
    generalize (readSign s).1 = neg at *
    generalize (readSign s).2 = body at *
    subst ht
    cases body with
    | nil => cases h
    | cons c r =>
      simp only at h
      by_cases hd : IsDigit 10 c
      · rw [if_pos hd] at h
        obtain ⟨ds, u, e, hds, hu⟩ := exists_run 10 (c :: r)
        rw [e, expLoop_run ds u hds, expLoop_stop u _ hu] at h
        simp only at h
        by_cases hun : u = []
        · subst hun
          rw [if_pos rfl] at h
          rw [List.append_nil] at e
          exact ⟨sg, neg, ds, by rw [e], hsg, hds, ⟨c, by rw [← e]; rfl, hd⟩, (Option.some.inj h).symm⟩
        · rw [if_neg hun] at h; cases h
      · rw [if_neg hd] at h; cases h
  · rintro ⟨sg, neg, ds, rfl, hsg, hds, ⟨c, hc, hd⟩, rfl⟩
    rw [readSign_append hsg ds (fun c' hc' => by
      rw [hc] at hc'; cases hc'
      exact ⟨isDigit_ne hd (by decide), isDigit_ne hd (by decide)⟩)]
    cases ds with
    | nil => cases hc
    | cons c' r =>
      cases hc
      simp only
      have e := expLoop_run (c :: r) [] hds 0
      rw [List.append_nil] at e
      rw [if_pos hd, e, expLoop_stop [] _ (fun c h => (nomatch h)), if_pos rfl]
      rfl

theorem hexMark_iff (t : Bytes) : HexMark t ↔ ∃ x, lowerByte x = 120 ∧ t = [48, x] := by
  have h : ∀ n, n < 256 → (lowerByte (UInt8.ofNat n) = 120 ↔ n = 120 ∨ n = 88) := by decide +kernel
  constructor
  · rintro (rfl | rfl)
    · exact ⟨120, by decide, rfl⟩
    · exact ⟨88, by decide, rfl⟩
  · rintro ⟨x, hx, rfl⟩
    have := (h x.toNat x.toNat_lt).1 (by rw [UInt8.ofNat_toNat]; exact hx)
    rcases this with h1 | h1
    · left
      have : x = 120 := UInt8.toNat_inj.1 h1
      rw [this]; rfl
    · right
      have : x = 88 := UInt8.toNat_inj.1 h1
      rw [this]; rfl

theorem hexPrefix_hex {mark r : Bytes} (h : HexMark mark) (hr : r ≠ []) : hexPrefix (mark ++ r) = (true, r) := by
  obtain ⟨x, hx, rfl⟩ := (hexMark_iff mark).1 h
  cases r with
  | nil => exact absurd rfl hr
  | cons y r => simp [hexPrefix, hx]

theorem hexPrefix_cases (t : Bytes) : (∃ mark r, HexMark mark ∧ t = mark ++ r ∧ hexPrefix t = (true, r)) ∨ hexPrefix t = (false, t) := by
  unfold hexPrefix
  split
  · next x y r =>
    by_cases hx : lowerByte x = 120
    · left
      exact ⟨[48, x], y :: r, (hexMark_iff _).2 ⟨x, hx, rfl⟩, rfl, by rw [if_pos hx]⟩
    · right; rw [if_neg hx]
  · exact .inr rfl

/-- A decimal text has no letter but `e` in second place. -/
theorem decimal_second {mant ex : Bytes} {n frac : Nat} {k : Int} (hm : MantissaText 10 mant n frac)
    (hx : ex = [] ∧ k = 0 ∨ ExponentText 'e' 'E' ex k) {a x : UInt8} {r : Bytes} (h : mant ++ ex = a :: x :: r) :
    IsDigit 10 x ∨ x = 95 ∨ x = 46 ∨ x = 101 ∨ x = 69 := by
  obtain ⟨i, f, ht, hrun, hne, _, _⟩ := hm
  have hall : ∀ c ∈ mant, IsDigit 10 c ∨ c = 95 ∨ c = 46 := by
    intro c hc
    rcases ht with ⟨rfl, rfl⟩ | rfl
    · rcases hrun c (by simp [hc]) with h | h
      · exact .inl h
      · exact .inr (.inl h)
    · simp only [List.mem_append, List.mem_cons] at hc
      rcases hc with hc | hc | hc
      · rcases hrun c (by simp [hc]) with h | h
        · exact .inl h
        · exact .inr (.inl h)
      · exact .inr (.inr hc)
      · rcases hrun c (by simp [hc]) with h | h
        · exact .inl h
        · exact .inr (.inl h)
  have hmant : mant ≠ [] := by
    rcases ht with ⟨rfl, rfl⟩ | rfl
    · rintro rfl; exact hne rfl
    · simp
  match mant, hmant, hall, h with
  | [c], _, _, h =>
    rw [List.singleton_append, List.cons.injEq] at h
    rcases hx with ⟨rfl, _⟩ | ⟨m, sg, neg, ds, rfl, hmm, _⟩
    · cases h.2
    · have := h.2
      rw [List.cons.injEq] at this
      rw [← this.1]
      rcases hmm with rfl | rfl
      · exact .inr (.inr (.inr (.inl rfl)))
      · exact .inr (.inr (.inr (.inr rfl)))
  | c :: d :: m, _, hall, h =>
    rw [List.cons_append, List.cons_append, List.cons.injEq, List.cons.injEq] at h
    have := hall d (by simp)
    rw [h.2.1] at this
    rcases this with h | h | h
    · exact .inl h
    · exact .inr (.inl h)
    · exact .inr (.inr (.inl h))

theorem decimal_not_hex {mant ex : Bytes} {n frac : Nat} {k : Int} (hm : MantissaText 10 mant n frac)
    (hx : ex = [] ∧ k = 0 ∨ ExponentText 'e' 'E' ex k) {mark r : Bytes} (hk : HexMark mark) : mant ++ ex ≠ mark ++ r := by
  intro h
  obtain ⟨x, hx', rfl⟩ := (hexMark_iff mark).1 hk
  have := decimal_second hm hx (a := 48) (x := x) (r := r) h
  rcases this with h | rfl | rfl | rfl | rfl
  · have h1 : x = 120 ∨ x = 88 := by
      rcases hk with h | h
      · left; exact (List.cons.inj (List.cons.inj h).2).1
      · right; exact (List.cons.inj (List.cons.inj h).2).1
    rcases h1 with rfl | rfl
    · exact isDigit_ne h (n := 120) (by decide) rfl
    · exact isDigit_ne h (n := 88) (by decide) rfl
  all_goals exact absurd hx' (by decide)

/-- A mantissa does not begin with a sign. -/
theorem mantissa_head {base : Nat} {mant : Bytes} {n frac : Nat} (hm : MantissaText base mant n frac) :
    ∃ c r, mant = c :: r ∧ (IsDigit base c ∨ c = 95 ∨ c = 46) := by
  obtain ⟨i, f, ht, hrun, hne, _, _⟩ := hm
  rcases ht with ⟨rfl, rfl⟩ | rfl
  · cases mant with
    | nil => exact absurd rfl hne
    | cons c r => exact ⟨c, r, rfl, (hrun c (by simp)).imp id .inl⟩
  · cases i with
    | nil => exact ⟨_, _, rfl, .inr (.inr rfl)⟩
    | cons c r => exact ⟨c, _, rfl, (hrun c (by simp)).imp id .inl⟩

theorem letter_iff (c : UInt8) : (lowerByte c = 101 ↔ c = ch 'e' ∨ c = ch 'E') ∧ (lowerByte c = 112 ↔ c = ch 'p' ∨ c = ch 'P') := by
  have h : ∀ n, n < 256 → ((lowerByte (UInt8.ofNat n) = 101 ↔ UInt8.ofNat n = ch 'e' ∨ UInt8.ofNat n = ch 'E') ∧
    (lowerByte (UInt8.ofNat n) = 112 ↔ UInt8.ofNat n = ch 'p' ∨ UInt8.ofNat n = ch 'P')) := by decide +kernel
  have := h c.toNat c.toNat_lt
  rwa [UInt8.ofNat_toNat] at this

/-- The exponent part of `readFloat`. -/
def expPart (hex : Bool) : Bytes → Option Int
  | [] => if hex then none else some 0
  | c :: r => if lowerByte c = (if hex then 112 else 101) then readExp r else none

theorem expPart_iff_dec (t : Bytes) (k : Int) : expPart false t = some k ↔ (t = [] ∧ k = 0 ∨ ExponentText 'e' 'E' t k) := by
  cases t with
  | nil => simp [expPart, ExponentText, eq_comm]
  | cons c r =>
    rw [expPart]
    constructor
    · intro h
      by_cases hc : lowerByte c = (if false then 112 else 101)
      · rw [if_pos hc] at h
        obtain ⟨sg, neg, ds, rfl, h1, h2, h3, h4⟩ := (readExp_iff r k).1 h
        exact .inr ⟨c, sg, neg, ds, rfl, (letter_iff c).1.1 hc, h1, h2, h3, h4⟩
      · rw [if_neg hc] at h; cases h
    · rintro (⟨h, _⟩ | ⟨m, sg, neg, ds, e, hm, h1, h2, h3, h4⟩)
      · cases h
      · rw [List.cons.injEq] at e
        rw [if_pos (show lowerByte c = (if false = true then 112 else 101) from (letter_iff c).1.2 (e.1 ▸ hm)), readExp_iff]
        exact ⟨sg, neg, ds, e.2, h1, h2, h3, h4⟩

theorem expPart_iff_hex (t : Bytes) (k : Int) : expPart true t = some k ↔ ExponentText 'p' 'P' t k := by
  cases t with
  | nil => simp [expPart, ExponentText]
  | cons c r =>
    rw [expPart]
    constructor
    · intro h
      by_cases hc : lowerByte c = (if true then 112 else 101)
      · rw [if_pos hc] at h
        obtain ⟨sg, neg, ds, rfl, h1, h2, h3, h4⟩ := (readExp_iff r k).1 h
        exact ⟨c, sg, neg, ds, rfl, (letter_iff c).2.1 hc, h1, h2, h3, h4⟩
      · rw [if_neg hc] at h; cases h
    · rintro ⟨m, sg, neg, ds, e, hm, h1, h2, h3, h4⟩
      rw [List.cons.injEq] at e
      rw [if_pos (show lowerByte c = (if true = true then 112 else 101) from (letter_iff c).2.2 (e.1 ▸ hm)), readExp_iff]
      exact ⟨sg, neg, ds, e.2, h1, h2, h3, h4⟩

theorem readFloat_eq (s : Bytes) : readFloat s =
    if (mantLoop (hexPrefix (readSign s).2).1 (hexPrefix (readSign s).2).2 .zero).1.sawDigits then
      match expPart (hexPrefix (readSign s).2).1 (mantLoop (hexPrefix (readSign s).2).1 (hexPrefix (readSign s).2).2 .zero).2 with
      | none => none
      | some e => if s.contains 95 && !underscoreOK s then none
        else if (hexPrefix (readSign s).2).1 then
          some (scaled (readSign s).1 (mantLoop (hexPrefix (readSign s).2).1 (hexPrefix (readSign s).2).2 .zero).1.digits 2
            (e - 4 * (mantLoop (hexPrefix (readSign s).2).1 (hexPrefix (readSign s).2).2 .zero).1.frac))
        else some (scaled (readSign s).1 (mantLoop (hexPrefix (readSign s).2).1 (hexPrefix (readSign s).2).2 .zero).1.digits 10
            (e - (mantLoop (hexPrefix (readSign s).2).1 (hexPrefix (readSign s).2).2 .zero).1.frac))
    else none := by
  unfold readFloat
  rcases readSign s with ⟨neg, body⟩
  simp only
  rcases hexPrefix body with ⟨hex, digits⟩
  simp only
  rw [show ({ digits := 0, frac := 0, sawDot := false, sawDigits := false } : Mant) = Mant.zero from rfl]
  rcases mantLoop hex digits Mant.zero with ⟨⟨d, f, dot, sd⟩, r⟩
  cases sd
  · rfl
  · cases r <;> rfl

theorem readFloat_sound {s : Bytes} {x : F64} (h : readFloat s = some x) :
    ∃ neg n b k, Denotes s neg n b k ∧ 0 < b ∧ (s.contains 95 = true → underscoreOK s = true) ∧ x = scaled neg n b k := by
  rw [readFloat_eq] at h
  obtain ⟨sg, hsg, hs⟩ := readSign_sound s
  by_cases hd : (mantLoop (hexPrefix (readSign s).2).1 (hexPrefix (readSign s).2).2 .zero).1.sawDigits = true
  · rw [if_pos hd] at h
    obtain ⟨mant, ex, e1, e2, e3, e4⟩ := mant_sound _ _ hd
    rw [e3] at h
    cases hk : expPart (hexPrefix (readSign s).2).1 ex with
    | none => rw [hk] at h; cases h
    | some k =>
      rw [hk] at h
      simp only at h
      by_cases hu : (s.contains 95 && !underscoreOK s) = true
      · rw [if_pos hu] at h; cases h
      · rw [if_neg hu] at h
        have hu' : s.contains 95 = true → underscoreOK s = true := by
          intro h1; rw [h1] at hu; simpa using hu
        rcases hexPrefix_cases (readSign s).2 with ⟨mark, r, hm, er, eh⟩ | eh
        · rw [eh] at h hk e1 e2
          simp only [if_true] at h e1
          rw [expPart_iff_hex] at hk
          refine ⟨_, _, _, _, ?_, ?_, hu', (Option.some.inj h).symm⟩
          · have := Denotes.hex sg _ mark mant _ _ ex k hsg hm e2 hk
            have e : s = sg ++ mark ++ mant ++ ex := by
              rw [hs, er, e1]; simp
            rw [← e] at this
            exact this
          · decide
        · rw [eh] at h hk e1 e2
          simp only [Bool.false_eq_true, if_false] at h e1
          rw [expPart_iff_dec] at hk
          refine ⟨_, _, _, _, ?_, ?_, hu', (Option.some.inj h).symm⟩
          · have := Denotes.decimal sg _ mant _ _ ex k hsg e2 hk
            have e : s = sg ++ mant ++ ex := by
              rw [hs, e1]; simp
            rw [← e] at this
            exact this
          · decide
  · rw [if_neg hd] at h; cases h

theorem exponent_head {lo up : Char} {ex : Bytes} {k : Int} (h : ExponentText lo up ex k) : ∀ c ∈ ex.head?, c = ch lo ∨ c = ch up := by
  obtain ⟨m, sg, neg, ds, rfl, hm, _⟩ := h
  intro c hc
  cases hc
  exact hm

theorem mantissa_head_sign {base : Nat} {mant ex : Bytes} {n frac : Nat} (hm : MantissaText base mant n frac) :
    ∀ c ∈ (mant ++ ex).head?, c ≠ 43 ∧ c ≠ 45 := by
  obtain ⟨c, r, rfl, h⟩ := mantissa_head hm
  intro c' hc
  cases hc
  rcases h with h | rfl | rfl
  · exact ⟨isDigit_ne h (by decide), isDigit_ne h (by decide)⟩
  · decide
  · decide

theorem readFloat_complete {s : Bytes} {neg : Bool} {n b : Nat} {k : Int} (h : Denotes s neg n b k)
    (hu : s.contains 95 = true → underscoreOK s = true) : readFloat s = some (scaled neg n b k) := by
  rw [readFloat_eq]
  have hu' : (s.contains 95 && !underscoreOK s) = false := by
    cases h1 : s.contains 95
    · rfl
    · rw [hu h1]; rfl
  rw [hu']
  cases h with
  | decimal sg neg mant n frac ex k hsg hm hx =>
    rw [List.append_assoc, readSign_append hsg _ (mantissa_head_sign hm)]
    simp only
    have hp : hexPrefix (mant ++ ex) = (false, mant ++ ex) := by
      rcases hexPrefix_cases (mant ++ ex) with ⟨mark, r, hk, er, _⟩ | h
      · exact absurd er (decimal_not_hex hm hx hk)
      · exact h
    have hh : ∀ c ∈ ex.head?, ¬ IsDigit (baseOf false) c ∧ c ≠ 95 ∧ c ≠ 46 := by
      rcases hx with ⟨rfl, _⟩ | hx
      · intro c hc; cases hc
      · intro c hc
        rcases exponent_head hx c hc with rfl | rfl
        · exact ⟨fun h => absurd ((isDigit_ten _).1 h) (by decide), by decide, by decide⟩
        · exact ⟨fun h => absurd ((isDigit_ten _).1 h) (by decide), by decide, by decide⟩
    obtain ⟨m1, m2, m3, m4⟩ := mant_complete false mant ex n frac hm hh
    rw [hp]
    simp only
    rw [if_pos m1, m4, (expPart_iff_dec ex k).2 hx, m2, m3]
    rfl
  | hex sg neg mark mant n frac ex k hsg hk hm hx =>
    obtain ⟨x, hx', rfl⟩ := (hexMark_iff mark).1 hk
    rw [List.append_assoc, List.append_assoc, readSign_append hsg _ (by
      intro c hc; cases hc; decide)]
    simp only
    have hne : mant ++ ex ≠ [] := by
      obtain ⟨c, r, rfl, _⟩ := mantissa_head hm
      simp
    have hh : ∀ c ∈ ex.head?, ¬ IsDigit (baseOf true) c ∧ c ≠ 95 ∧ c ≠ 46 := by
      intro c hc
      rcases exponent_head hx c hc with rfl | rfl
      · exact ⟨fun h => isDigit_ne h (n := ch 'p') (by decide) rfl, by decide, by decide⟩
      · exact ⟨fun h => isDigit_ne h (n := ch 'P') (by decide) rfl, by decide, by decide⟩
    obtain ⟨m1, m2, m3, m4⟩ := mant_complete true mant ex n frac hm hh
    rw [hexPrefix_hex hk hne]
    simp only
    rw [if_pos m1, m4, (expPart_iff_hex ex k).2 hx, m2, m3]
    rfl

/-! ### Underscores -/

theorem underscoreLoop_iff (hex : Bool) (t : Bytes) : ∀ saw, underscoreLoop hex t saw = true ↔
    ((∀ a b, t = a ++ 95 :: b → (∃ c ∈ b.head?, IsDigit (baseOf hex) c) ∧ ((a = [] ∧ saw = .digit) ∨ ∃ c ∈ a.getLast?, IsDigit (baseOf hex) c)) ∧
      (saw = .under → ∃ c ∈ t.head?, IsDigit (baseOf hex) c)) := by
  induction t with
  | nil =>
    intro saw
    cases saw <;> simp [underscoreLoop]
  | cons c t ih =>
    intro saw
    have split_cons : ∀ (P : Bytes → Bytes → Prop), (∀ a b, c :: t = a ++ 95 :: b → P a b) ↔
        ((c = 95 → P [] t) ∧ ∀ a b, t = a ++ 95 :: b → P (c :: a) b) := by
      intro P
      constructor
      · intro h
        exact ⟨fun hc => h [] t (by rw [hc]; rfl), fun a b e => h (c :: a) b (by rw [e]; rfl)⟩
      · rintro ⟨h1, h2⟩ a b e
        cases a with
        | nil =>
          rw [List.nil_append, List.cons.injEq] at e
          rw [← e.2]; exact h1 e.1
        | cons x a =>
          rw [List.cons_append, List.cons.injEq] at e
          rw [← e.1]; exact h2 a b e.2
    have last : ∀ a : Bytes, (∃ x ∈ (c :: a).getLast?, IsDigit (baseOf hex) x) ↔
        ((a = [] ∧ IsDigit (baseOf hex) c) ∨ ∃ x ∈ a.getLast?, IsDigit (baseOf hex) x) := by
      intro a
      cases a with
      | nil => simp
      | cons y a => simp [List.getLast?_cons_cons]
    rw [split_cons]
    by_cases hd : IsDigit (baseOf hex) c
    · rw [underscoreLoop, if_pos ((digitVal_isSome hex c).2 hd), ih]
      have hc : c ≠ 95 := isDigit_ne hd (by decide)
      constructor
      · rintro ⟨h1, _⟩
        refine ⟨⟨fun h => absurd h hc, fun a b e => ⟨(h1 a b e).1, .inr ((last a).2 ?_)⟩⟩, fun _ => ⟨c, by simp, hd⟩⟩
        rcases (h1 a b e).2 with h | h
        · exact .inl ⟨h.1, hd⟩
        · exact .inr h
      · rintro ⟨⟨_, h2⟩, _⟩
        refine ⟨fun a b e => ⟨(h2 a b e).1, ?_⟩, fun h => (nomatch h)⟩
        rcases (h2 a b e).2 with h | h
        · cases h.1
        · rcases (last a).1 h with h | h
          · exact .inl ⟨h.1, rfl⟩
          · exact .inr h
    · rw [underscoreLoop, if_neg (fun h => hd ((digitVal_isSome hex c).1 h))]
      by_cases hc : c = 95
      · rw [if_pos hc]
        by_cases hs : saw = .digit
        · rw [if_pos hs, ih]
          constructor
          · rintro ⟨h1, h2⟩
            refine ⟨⟨fun _ => ⟨h2 rfl, .inl ⟨rfl, hs⟩⟩, fun a b e => ⟨(h1 a b e).1, .inr ((last a).2 ?_)⟩⟩, fun h => ?_⟩
            · rcases (h1 a b e).2 with h | h
              · cases h.2
              · exact .inr h
            · rw [hs] at h; cases h
          · rintro ⟨⟨h1, h2⟩, _⟩
            refine ⟨fun a b e => ⟨(h2 a b e).1, ?_⟩, fun _ => (h1 hc).1⟩
            rcases (h2 a b e).2 with h | h
            · cases h.1
            · rcases (last a).1 h with h | h
              · exact absurd h.2 hd
              · exact .inr h
        · rw [if_neg hs]
          constructor
          · intro h; cases h
          · rintro ⟨⟨h1, _⟩, _⟩
            rcases (h1 hc).2 with h | ⟨x, h, _⟩
            · exact absurd h.2 hs
            · cases h
      · rw [if_neg hc]
        by_cases hs : saw = .under
        · rw [if_pos hs]
          constructor
          · intro h; cases h
          · rintro ⟨_, h⟩
            obtain ⟨x, hx, hxd⟩ := h hs
            cases hx
            exact absurd hxd hd
        · rw [if_neg hs, ih]
          constructor
          · rintro ⟨h1, _⟩
            refine ⟨⟨fun h => absurd h hc, fun a b e => ⟨(h1 a b e).1, .inr ((last a).2 ?_)⟩⟩, fun h => absurd h hs⟩
            rcases (h1 a b e).2 with h | h
            · cases h.2
            · exact .inr h
          · rintro ⟨⟨_, h2⟩, _⟩
            refine ⟨fun a b e => ⟨(h2 a b e).1, ?_⟩, fun h => (nomatch h)⟩
            rcases (h2 a b e).2 with h | h
            · cases h.1
            · rcases (last a).1 h with h | h
              · exact absurd h.2 hd
              · exact .inr h

theorem isDigit_mono {c : UInt8} (h : IsDigit 10 c) : IsDigit 16 c := by
  obtain ⟨d, h1, h2⟩ := h; exact ⟨d, h1, by omega⟩

theorem sign_mem {sg : Bytes} {neg : Bool} (h : SignText sg neg) : ∀ c ∈ sg, c = 43 ∨ c = 45 := by
  cases h <;> simp [ch_plus, ch_minus]

theorem mark_head {mark r : Bytes} (h : HexMark mark) : ∀ c ∈ (mark ++ r).head?, c ≠ 43 ∧ c ≠ 45 := by
  rcases h with rfl | rfl <;> (intro c hc; cases hc; decide)

theorem isHex_iff (t : Bytes) : IsHex t ↔ ∃ mark r, HexMark mark ∧ (readSign t).2 = mark ++ r := by
  constructor
  · rintro ⟨sg, neg, mark, r, h1, h2, rfl⟩
    refine ⟨mark, r, h2, ?_⟩
    rw [List.append_assoc, readSign_append h1 _ (mark_head h2)]
  · rintro ⟨mark, r, h, e⟩
    obtain ⟨sg, hsg, ht⟩ := readSign_sound t
    exact ⟨sg, _, mark, r, hsg, h, by rw [ht, e]; simp⟩

/-- Underscores in a text whose first part has none. -/
theorem split_prefix {pre rest a b : Bytes} (hp : 95 ∉ pre) (h : pre ++ rest = a ++ 95 :: b) : ∃ a', a = pre ++ a' ∧ rest = a' ++ 95 :: b := by
  rcases List.append_eq_append_iff.1 h with ⟨a', e1, e2⟩ | ⟨c', e1, e2⟩
  · exact ⟨a', e1, e2⟩
  · cases c' with
    | nil =>
      rw [List.append_nil] at e1
      exact ⟨[], by rw [e1]; simp, by simpa using e2.symm⟩
    | cons x c' =>
      rw [List.cons_append, List.cons.injEq] at e2
      exact absurd (by rw [e1, ← e2.1]; simp) hp

theorem getLast_append {pre a' : Bytes} (h : a' ≠ []) : (pre ++ a').getLast? = a'.getLast? := by
  rw [List.getLast?_append]
  cases h1 : a'.getLast? with
  | none => exact absurd (List.getLast?_eq_none_iff.1 h1) h
  | some x => rfl

theorem underscores_dec {sg : Bytes} {neg : Bool} (hsg : SignText sg neg) {body : Bytes} (hb : ∀ c ∈ body.head?, c ≠ 43 ∧ c ≠ 45)
    (hn : ∀ mark r, HexMark mark → body ≠ mark ++ r) :
    underscoreLoop false body .start = true ↔ UnderscoresSeparate (sg ++ body) := by
  have hr := readSign_append hsg body hb
  have hx : ¬ IsHex (sg ++ body) := by
    rw [isHex_iff, hr]
    rintro ⟨mark, r, h1, h2⟩
    exact hn mark r h1 h2
  have hs : ∀ c, SeparatedDigit (sg ++ body) c ↔ IsDigit (baseOf false) c := fun c =>
    ⟨fun h => h.resolve_right fun h => hx h.1, .inl⟩
  have hsg95 : 95 ∉ sg := fun h => by rcases sign_mem hsg _ h with h | h <;> exact absurd h (by decide)
  rw [underscoreLoop_iff, UnderscoresSeparate]
  simp only [hs, ch_underscore]
  constructor
  · rintro ⟨h, _⟩ a b e
    obtain ⟨a', rfl, e'⟩ := split_prefix hsg95 e
    obtain ⟨h1, h2⟩ := h a' b e'
    refine ⟨h1, .inl ?_⟩
    rcases h2 with h2 | h2
    · cases h2.2
    · have : a' ≠ [] := by rintro rfl; obtain ⟨c, hc, _⟩ := h2; cases hc
      rw [getLast_append this]; exact h2
  · intro h
    refine ⟨fun a b e => ?_, fun h => (nomatch h)⟩
    obtain ⟨h1, h2⟩ := h (sg ++ a) b (by rw [e]; simp)
    refine ⟨h1, .inr ?_⟩
    rcases h2 with ⟨c, hc, hd⟩ | ⟨sg2, neg2, mark, g1, g2, g3⟩
    · by_cases ha : a = []
      · subst ha
        rw [List.append_nil] at hc
        rcases sign_mem hsg c (List.mem_of_getLast? hc) with rfl | rfl
        · exact absurd rfl (isDigit_ne hd (n := 43) (by decide))
        · exact absurd rfl (isDigit_ne hd (n := 45) (by decide))
      · rw [getLast_append ha] at hc; exact ⟨c, hc, hd⟩
    · exfalso
      refine hx ⟨sg2, neg2, mark, 95 :: b, g1, g2, ?_⟩
      rw [← g3, e]; simp

theorem underscores_hex {sg : Bytes} {neg : Bool} (hsg : SignText sg neg) {mark : Bytes} (hm : HexMark mark) (r : Bytes) :
    underscoreLoop true r .digit = true ↔ UnderscoresSeparate (sg ++ mark ++ r) := by
  have hx : IsHex (sg ++ mark ++ r) := ⟨sg, neg, mark, r, hsg, hm, rfl⟩
  have hs : ∀ c, SeparatedDigit (sg ++ mark ++ r) c ↔ IsDigit (baseOf true) c := fun c =>
    ⟨fun h => h.elim isDigit_mono (·.2), fun h => .inr ⟨hx, h⟩⟩
  have hp95 : 95 ∉ sg ++ mark := by
    intro h
    rcases List.mem_append.1 h with h | h
    · rcases sign_mem hsg _ h with h | h <;> exact absurd h (by decide)
    · rcases hm with rfl | rfl <;> exact absurd h (by decide)
  rw [underscoreLoop_iff, UnderscoresSeparate]
  simp only [hs, ch_underscore]
  constructor
  · rintro ⟨h, _⟩ a b e
    obtain ⟨a', rfl, e'⟩ := split_prefix hp95 e
    obtain ⟨h1, h2⟩ := h a' b e'
    refine ⟨h1, ?_⟩
    rcases h2 with h2 | h2
    · right; exact ⟨sg, neg, mark, hsg, hm, by rw [h2.1]; simp⟩
    · left
      have : a' ≠ [] := by rintro rfl; obtain ⟨c, hc, _⟩ := h2; cases hc
      rw [getLast_append this]; exact h2
  · intro h
    refine ⟨fun a b e => ?_, fun h => (nomatch h)⟩
    obtain ⟨h1, h2⟩ := h (sg ++ mark ++ a) b (by rw [e]; simp)
    refine ⟨h1, ?_⟩
    by_cases ha : a = []
    · exact .inl ⟨ha, trivial⟩
    · right
      rcases h2 with h2 | ⟨sg2, neg2, mark2, g1, g2, g3⟩
      · rwa [getLast_append ha] at h2
      · exfalso
        have e1 := readSign_append hsg (mark ++ a) (mark_head hm)
        have e2 := readSign_append g1 (mark2 ++ []) (mark_head g2)
        rw [List.append_nil, ← g3, List.append_assoc, e1] at e2
        have e3 := congrArg List.length (Prod.mk.inj e2).2
        have l1 : mark.length = 2 := by rcases hm with rfl | rfl <;> rfl
        have l2 : mark2.length = 2 := by rcases g2 with rfl | rfl <;> rfl
        rw [List.length_append, l1, l2] at e3
        exact ha (List.eq_nil_of_length_eq_zero (by omega))

theorem underscoreOK_eq (s : Bytes) : underscoreOK s = match (readSign s).2 with
    | 48 :: x :: r =>
      if lowerByte x = 120 then underscoreLoop true r .digit
      else if lowerByte x = 98 ∨ lowerByte x = 111 then underscoreLoop false r .digit
      else underscoreLoop false (readSign s).2 .start
    | _ => underscoreLoop false (readSign s).2 .start := by
  by_cases h1 : ∃ r, s = 43 :: r
  · obtain ⟨r, rfl⟩ := h1; rfl
  by_cases h2 : ∃ r, s = 45 :: r
  · obtain ⟨r, rfl⟩ := h2; rfl
  have e : readSign s = (false, s) := by
    unfold readSign
    split
    · exact absurd ⟨_, rfl⟩ h1
    · exact absurd ⟨_, rfl⟩ h2
    · rfl
  rw [e]
  unfold underscoreOK
  split
  · exact absurd ⟨_, rfl⟩ h1
  · exact absurd ⟨_, rfl⟩ h2
  · rfl

theorem underscoreOK_iff {s : Bytes} {neg : Bool} {n b : Nat} {k : Int} (h : Denotes s neg n b k) :
    underscoreOK s = true ↔ UnderscoresSeparate s := by
  rw [underscoreOK_eq]
  cases h with
  | decimal sg neg mant n frac ex k hsg hm hx =>
    rw [List.append_assoc, readSign_append hsg _ (mantissa_head_sign hm)]
    have hl := underscores_dec hsg (mantissa_head_sign (ex := ex) hm) fun mark r hk => decimal_not_hex hm hx hk
    rw [← hl]
    simp only
    split
    · next x r e =>
      have h2 := decimal_second hm hx e
      have t : ∀ n, n < 256 → (lowerByte (UInt8.ofNat n) = 98 ∨ lowerByte (UInt8.ofNat n) = 111 ∨ lowerByte (UInt8.ofNat n) = 120) →
          ¬ (48 ≤ n ∧ n ≤ 57) := by decide +kernel
      have hx' : ¬ (lowerByte x = 98 ∨ lowerByte x = 111 ∨ lowerByte x = 120) := by
        intro hc
        rcases h2 with h | rfl | rfl | rfl | rfl
        · exact t x.toNat x.toNat_lt (by rw [UInt8.ofNat_toNat]; exact hc) ((isDigit_ten x).1 h)
        all_goals exact absurd hc (by decide)
      rw [if_neg fun h => hx' (.inr (.inr h)), if_neg fun h => hx' (h.elim .inl fun h => .inr (.inl h))]
    · exact Iff.rfl
  | hex sg neg mark mant n frac ex k hsg hk hm hx =>
    have hl := underscores_hex hsg hk (mant ++ ex)
    rw [List.append_assoc, ← hl, List.append_assoc, readSign_append hsg _ (mark_head hk)]
    obtain ⟨x, hx', rfl⟩ := (hexMark_iff mark).1 hk
    simp only [List.cons_append, List.nil_append]
    rw [if_pos hx']

theorem separate_of_none {s : Bytes} (h : s.contains 95 = false) : UnderscoresSeparate s := by
  intro a b e
  rw [e] at h
  simp [ch_underscore] at h

/-! ### The number -/

theorem scaled_iff (neg : Bool) (n b : Nat) (hb : 0 < b) (k : Int) (x : F64) : (scaled neg n b k = x ∧ Finite x) ↔
    ((n : ℚ) * (b : ℚ) ^ k < overflow ∧ signBit x = neg ∧ Nearest ((if neg then -1 else 1) * ((n : ℚ) * (b : ℚ) ^ k)) x) := by
  rw [scaled]
  by_cases hk : 0 ≤ k
  · obtain ⟨j, rfl⟩ := Int.eq_ofNat_of_zero_le hk
    rw [if_pos hk, roundRat_iff neg _ 1 (by decide)]
    simp
  · obtain ⟨j, rfl⟩ : ∃ j : Nat, k = -(j : Int) := ⟨(-k).toNat, by omega⟩
    rw [if_neg hk, roundRat_iff neg _ _ (Nat.pow_pos hb)]
    simp [div_eq_mul_inv]

theorem scaled_not_nan (neg : Bool) (n b : Nat) (k : Int) (hb : 0 < b) (h : ∀ g, scaled neg n b k ≠ .inf g) : Finite (scaled neg n b k) := by
  rw [scaled] at *
  have key : ∀ num den, 0 < den → (∀ g, F64.roundRat neg num den ≠ .inf g) → Finite (F64.roundRat neg num den) := by
    intro num den hd h
    obtain ⟨h1, h2⟩ := F64.roundRat_nearest neg num den hd
    rcases lt_or_ge ((num : ℚ) / den) overflow with hlt | hge
    · obtain ⟨m, e, he, _⟩ := h1 hlt
      rw [he]; trivial
    · exact absurd (h2 hge) (h neg)
  by_cases hk : 0 ≤ k
  · rw [if_pos hk] at *; exact key _ _ (by decide) h
  · rw [if_neg hk] at *; exact key _ _ (Nat.pow_pos hb) h

theorem lower_eq (c : UInt8) : lower c = lowerByte c := rfl

theorem map_lower_sign {sg : Bytes} {neg : Bool} (h : SignText sg neg) : sg.map lowerByte = sg := by cases h <;> rfl

theorem lower_sign (c : UInt8) : (lowerByte c = 43 ↔ c = 43) ∧ (lowerByte c = 45 ↔ c = 45) := by
  have h : ∀ n, n < 256 → ((lowerByte (UInt8.ofNat n) = 43 ↔ UInt8.ofNat n = 43) ∧ (lowerByte (UInt8.ofNat n) = 45 ↔ UInt8.ofNat n = 45)) := by
    decide +kernel
  have := h c.toNat c.toNat_lt
  rwa [UInt8.ofNat_toNat] at this

theorem map_cons_iff {s : Bytes} {w : Bytes} (g : UInt8) (hg : ∀ c, lowerByte c = g ↔ c = g) :
    s.map lowerByte = g :: w ↔ ∃ t, s = g :: t ∧ t.map lowerByte = w := by
  cases s with
  | nil => simp
  | cons c t =>
    rw [List.map_cons, List.cons.injEq, hg]
    constructor
    · rintro ⟨rfl, h⟩; exact ⟨t, rfl, h⟩
    · rintro ⟨t', h, h'⟩; cases h; exact ⟨rfl, h'⟩

theorem parseSpecial_iff (s : Bytes) (x : F64) : parseSpecial s = some x ↔ SpecialText s x := by
  have hp := fun w => map_cons_iff (s := s) (w := w) 43 fun c => (lower_sign c).1
  have hm := fun w => map_cons_iff (s := s) (w := w) 45 fun c => (lower_sign c).2
  rw [parseSpecial]
  constructor
  · intro h
    by_cases h1 : s.map lowerByte = b! "nan"
    · rw [if_pos h1] at h; cases h; exact .nan s h1
    rw [if_neg h1] at h
    by_cases h2 : s.map lowerByte = b! "inf" ∨ s.map lowerByte = b! "infinity" ∨ s.map lowerByte = b! "+inf" ∨ s.map lowerByte = b! "+infinity"
    · rw [if_pos h2] at h
      cases h
      rcases h2 with h2 | h2 | h2 | h2
      · exact .inf [] false s .none (.inl h2)
      · exact .inf [] false s .none (.inr h2)
      · obtain ⟨t, rfl, ht⟩ := (hp _).1 h2
        exact .inf [43] false t .plus (.inl ht)
      · obtain ⟨t, rfl, ht⟩ := (hp _).1 h2
        exact .inf [43] false t .plus (.inr ht)
    rw [if_neg h2] at h
    by_cases h3 : s.map lowerByte = b! "-inf" ∨ s.map lowerByte = b! "-infinity"
    · rw [if_pos h3] at h
      cases h
      rcases h3 with h2 | h2
      · obtain ⟨t, rfl, ht⟩ := (hm _).1 h2
        exact .inf [45] true t .minus (.inl ht)
      · obtain ⟨t, rfl, ht⟩ := (hm _).1 h2
        exact .inf [45] true t .minus (.inr ht)
    · rw [if_neg h3] at h; cases h
  · intro h
    cases h with
    | nan _ h => rw [if_pos (show s.map lowerByte = b! "nan" from h)]
    | inf sg neg t hsg h =>
      have h' : t.map lowerByte = b! "inf" ∨ t.map lowerByte = b! "infinity" := h
      cases hsg <;> rcases h' with h' | h' <;> simp only [List.map_append, h', List.map_nil] <;> decide

theorem denotes_base {s : Bytes} {neg : Bool} {n b : Nat} {k : Int} (h : Denotes s neg n b k) : 0 < b := by
  cases h <;> decide

theorem denotes_not_special {s : Bytes} {neg : Bool} {n b : Nat} {k : Int} (h : Denotes s neg n b k) : parseSpecial s = none := by
  cases hs : parseSpecial s with
  | none => rfl
  | some x =>
    exfalso
    have hx := (parseSpecial_iff s x).1 hs
    have hb : ∃ c r, (readSign s).2 = c :: r ∧ (IsDigit 16 c ∨ c = 95 ∨ c = 46) := by
      cases h with
      | decimal sg neg mant n frac ex k hsg hm hx =>
        rw [List.append_assoc, readSign_append hsg _ (mantissa_head_sign hm)]
        obtain ⟨c, r, rfl, h⟩ := mantissa_head hm
        exact ⟨c, r ++ ex, rfl, h.imp_left isDigit_mono⟩
      | hex sg neg mark mant n frac ex k hsg hk hm hx =>
        rw [List.append_assoc, List.append_assoc, readSign_append hsg _ (mark_head hk)]
        rcases hk with rfl | rfl
        · exact ⟨48, _, rfl, .inl ⟨0, by decide, by decide⟩⟩
        · exact ⟨48, _, rfl, .inl ⟨0, by decide, by decide⟩⟩
    have ht : ∀ n, n < 256 → (lowerByte (UInt8.ofNat n) = 110 ∨ lowerByte (UInt8.ofNat n) = 105) → n ∈ [110, 78, 105, 73] := by decide +kernel
    have nosign : ∀ (t : Bytes) (a : UInt8) (w : Bytes), a = 110 ∨ a = 105 → t.map lowerByte = a :: w →
        ∃ c r, t = c :: r ∧ c.toNat ∈ [110, 78, 105, 73] := by
      intro t a w ha e
      cases t with
      | nil => cases e
      | cons c r =>
        rw [List.map_cons, List.cons.injEq] at e
        refine ⟨c, r, rfl, ht c.toNat c.toNat_lt ?_⟩
        rw [UInt8.ofNat_toNat, e.1]; exact ha
    have hh : ∃ c r, (readSign s).2 = c :: r ∧ c.toNat ∈ [110, 78, 105, 73] := by
      have hhead : ∀ (t : Bytes) c r, t = c :: r → c.toNat ∈ [110, 78, 105, 73] → ∀ x ∈ t.head?, x ≠ 43 ∧ x ≠ 45 := by
        rintro t c r rfl hc x hx
        cases hx
        constructor <;> (rintro rfl; exact absurd hc (by decide))
      clear hb hs h
      cases hx with
      | nan _ h =>
        obtain ⟨c, r, e, hc⟩ := nosign s _ _ (.inl rfl) h
        have := readSign_append .none s (hhead s c r e hc)
        rw [List.nil_append] at this
        rw [this]; exact ⟨c, r, e, hc⟩
      | inf sg neg t hsg h =>
        obtain ⟨c, r, e, hc⟩ : ∃ c r, t = c :: r ∧ c.toNat ∈ [110, 78, 105, 73] := by
          rcases h with h | h
          · exact nosign t _ _ (.inr rfl) h
          · exact nosign t _ _ (.inr rfl) h
        rw [readSign_append hsg t (hhead t c r e hc)]
        exact ⟨c, r, e, hc⟩
    obtain ⟨c, r, e, h1⟩ := hb
    obtain ⟨c', r', e', h2⟩ := hh
    rw [e, List.cons.injEq] at e'
    obtain ⟨rfl, _⟩ := e'
    rcases h1 with h1 | rfl | rfl
    · exact isDigit_ne h1 (n := c) (by
        simp only [List.mem_cons, List.not_mem_nil, or_false] at h2 ⊢
        rcases h2 with h | h | h | h <;> simp [h]) rfl
    · exact absurd h2 (by decide)
    · exact absurd h2 (by decide)

/-- strconv.ParseFloat reads exactly the texts of numbers, each as the float64 nearest to it. -/
theorem parseFloat_iff (t : Bytes) (x : F64) : parseFloat t = some x ↔ NumberText t x := by
  rw [parseFloat]
  constructor
  · intro h
    cases hs : parseSpecial t with
    | some y =>
      rw [hs] at h
      cases h
      exact .inl ((parseSpecial_iff t x).1 hs)
    | none =>
      rw [hs] at h
      simp only at h
      cases hr : readFloat t with
      | none => rw [hr] at h; cases h
      | some y =>
        obtain ⟨neg, n, b, k, hd, hb, hu, hy⟩ := readFloat_sound hr
        have hyx : y = x ∧ ∀ g, y ≠ .inf g := by
          rw [hr] at h
          cases y with
          | inf g => cases h
          | nan => exact ⟨Option.some.inj h, fun g h => (nomatch h)⟩
          | fin a m e => exact ⟨Option.some.inj h, fun g h => (nomatch h)⟩
        obtain ⟨rfl, hinf⟩ := hyx
        have hsep : UnderscoresSeparate t := by
          cases hc : t.contains 95 with
          | false => exact separate_of_none hc
          | true => exact (underscoreOK_iff hd).1 (hu hc)
        subst hy
        have := (scaled_iff neg n b hb k _).1 ⟨rfl, scaled_not_nan neg n b k hb hinf⟩
        exact .inr ⟨neg, n, b, k, hd, hsep, this.1, this.2.1, this.2.2⟩
  · rintro (h | ⟨neg, n, b, k, hd, hsep, h1, h2, h3⟩)
    · rw [(parseSpecial_iff t x).2 h]
    · rw [denotes_not_special hd]
      have hb : 0 < b := denotes_base hd
      have hr := readFloat_complete hd (fun _ => (underscoreOK_iff hd).2 hsep)
      obtain ⟨e, hf⟩ := (scaled_iff neg n b hb k x).2 ⟨h1, h2, h3⟩
      rw [e] at hr
      simp only [hr]
      cases x with
      | nan => cases hf
      | inf g => cases hf
      | fin a m e => rfl

end Texted
