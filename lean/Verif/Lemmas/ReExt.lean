import Verif.Model.Lawful
import Verif.Lemmas.Utf8
import Verif.Spec.Regexp
/-
A regular expression engine for a part of Go's syntax, as a concrete instance of `Ext`. It is not a model of package regexp (which is
outside the repository and a parameter of the model); it shows that the contract `EngineFor` is met by an engine for real patterns, and
lets the repository's tests that use regular expressions be run through the model (Vectors.lean).
-/
namespace Texted

/-- Regular expressions over runes. -/
inductive Rx where
  | eps
  | cls (f : Char → Bool)
  | bol
  | eol
  | wordb (at_ : Bool)
  | cat (a b : Rx)
  | alt (a b : Rx)
  | star (greedy : Bool) (a : Rx)

/-- The rune boundary after `p`. -/
def runeStep (s : Bytes) (p : Nat) : Nat := p + max 1 (decodeRune (s.drop p)).2

/-- Letter, digit or underscore. -/
def isWordRune (c : Char) : Bool := c.isAlphanum || c == '_'

/-- Word character at offset `p`. -/
def wordByte (s : Bytes) (p : Nat) : Bool := match s[p]? with
  | some x => isWordRune (Char.ofNat x.toNat)
  | none => false

/-- A word boundary (ASCII) at `p`. -/
def atWordB (s : Bytes) (p : Nat) : Bool := (if p = 0 then false else wordByte s (p - 1)) != wordByte s p

/-- `Matches r s i j`: the expression matches `s` between `i` and `j`. -/
inductive Matches (s : Bytes) : Rx → Nat → Nat → Prop
  | eps (p) : Matches s .eps p p
  | cls (f p) (h : p < s.length) (hf : f (decodeRune (s.drop p)).1 = true) : Matches s (.cls f) p (runeStep s p)
  | bol : Matches s .bol 0 0
  | eol : Matches s .eol s.length s.length
  | wordb (b p) (h : atWordB s p = b) : Matches s (.wordb b) p p
  | cat (a b p q r) (h1 : Matches s a p q) (h2 : Matches s b q r) : Matches s (.cat a b) p r
  | altL (a b p q) (h : Matches s a p q) : Matches s (.alt a b) p q
  | altR (a b p q) (h : Matches s b p q) : Matches s (.alt a b) p q
  | starNil (g a p) : Matches s (.star g a) p p
  | starCons (g a p q r) (h1 : Matches s a p q) (h2 : Matches s (.star g a) q r) : Matches s (.star g a) p r

/-- All ends of iterations of `step` from `p`, in order of preference. -/
def starEnds (step : Nat → List Nat) (g : Bool) : Nat → Nat → List Nat
  | 0, p => [p]
  | f + 1, p =>
    let more := (step p).flatMap fun e => if p < e then starEnds step g f e else []
    if g then more ++ [p] else p :: more

/-- The ends of all matches that begin at `p`, in order of preference. -/
def ends (s : Bytes) : Rx → Nat → List Nat
  | .eps, p => [p]
  | .cls f, p => if p < s.length ∧ f (decodeRune (s.drop p)).1 = true then [runeStep s p] else []
  | .bol, p => if p = 0 then [p] else []
  | .eol, p => if p = s.length then [p] else []
  | .wordb b, p => if atWordB s p = b then [p] else []
  | .cat a b, p => (ends s a p).flatMap (ends s b)
  | .alt a b, p => ends s a p ++ ends s b p
  | .star g a, p => starEnds (ends s a) g (s.length + 1) p

theorem decodeRune_width (s : Bytes) (h : s ≠ []) : 1 ≤ (decodeRune s).2 ∧ (decodeRune s).2 ≤ s.length := by
  rcases s with _ | ⟨b0, rest⟩
  · exact absurd rfl h
  · simp only [decodeRune]
    repeat' split
    all_goals first | (simp; done) | (simp; omega)

theorem runeStep_le (s : Bytes) (p : Nat) (h : p < s.length) : p < runeStep s p ∧ runeStep s p ≤ s.length := by
  have hne : s.drop p ≠ [] := by intro h0; have := List.drop_eq_nil_iff.1 h0; omega
  have := decodeRune_width _ hne
  rw [List.length_drop] at this
  unfold runeStep
  omega

theorem Matches.le {s : Bytes} {r : Rx} {p q : Nat} (h : Matches s r p q) : p ≤ s.length → p ≤ q ∧ q ≤ s.length := by
  induction h with
  | eps p => intro h; exact ⟨Nat.le_refl _, h⟩
  | cls f p h hf => intro _; have := runeStep_le s p h; omega
  | bol => intro h; exact ⟨Nat.le_refl _, h⟩
  | eol => intro h; exact ⟨Nat.le_refl _, h⟩
  | wordb b p h => intro h; exact ⟨Nat.le_refl _, h⟩
  | cat a b p q r _ _ ih1 ih2 => intro h; have h1 := ih1 h; have h2 := ih2 h1.2; omega
  | altL a b p q _ ih => exact ih
  | altR a b p q _ ih => exact ih
  | starNil g a p => intro h; exact ⟨Nat.le_refl _, h⟩
  | starCons g a p q r _ _ ih1 ih2 => intro h; have h1 := ih1 h; have h2 := ih2 h1.2; omega

theorem starEnds_sound {s : Bytes} {a : Rx} {g : Bool} {step : Nat → List Nat}
    (hs : ∀ p e, p ≤ s.length → e ∈ step p → Matches s a p e) :
    ∀ f p e, p ≤ s.length → e ∈ starEnds step g f p → Matches s (.star g a) p e := by
  intro f
  induction f with
  | zero => intro p e _ h; simp only [starEnds, List.mem_singleton] at h; subst h; exact .starNil ..
  | succ f ih =>
    intro p e hp h
    have hm : e ∈ ((step p).flatMap fun e => if p < e then starEnds step g f e else []) ∨ e = p := by
      simp only [starEnds] at h
      split at h
      · simpa using h
      · rw [List.mem_cons] at h; exact h.symm
    rcases hm with hm | rfl
    · obtain ⟨q, h1, h2⟩ := List.mem_flatMap.1 hm
      split at h2
      · have h3 := hs p q hp h1
        exact .starCons _ _ _ _ _ h3 (ih q e (h3.le hp).2 h2)
      · simp at h2
    · exact .starNil ..

theorem starEnds_self (step : Nat → List Nat) (g : Bool) (f p : Nat) : p ∈ starEnds step g f p := by
  cases f with
  | zero => simp [starEnds]
  | succ f => simp only [starEnds]; split <;> simp

theorem starEnds_complete {s : Bytes} {a : Rx} {g : Bool} {step : Nat → List Nat}
    (hs : ∀ p e, p ≤ s.length → Matches s a p e → e ∈ step p) {p e : Nat} (h : Matches s (.star g a) p e) :
    p ≤ s.length → ∀ f, s.length < p + f → e ∈ starEnds step g f p := by
  generalize hr : Rx.star g a = r at h
  induction h with
  | starNil g' a' p => intro _ f _; cases hr; exact starEnds_self ..
  | starCons g' a' p q r h1 h2 _ ih2 =>
    cases hr
    intro hp f hf
    have hq := h1.le hp
    rcases Nat.lt_or_ge p q with hlt | hge
    · rcases f with _ | f
      · omega
      · have h3 := ih2 rfl hq.2 f (by omega)
        have hm : r ∈ ((step p).flatMap fun e => if p < e then starEnds step g f e else []) :=
          List.mem_flatMap.2 ⟨q, hs p q hp h1, by rw [if_pos hlt]; exact h3⟩
        simp only [starEnds]
        split
        · exact List.mem_append_left _ hm
        · exact List.mem_cons_of_mem _ hm
    · have : q = p := by omega
      subst this
      exact ih2 rfl hp f hf
  | _ => cases hr

/-- The computed ends are exactly those of matches. -/
theorem mem_ends (s : Bytes) : ∀ (r : Rx) (p e : Nat), p ≤ s.length → (e ∈ ends s r p ↔ Matches s r p e)
  | .eps, p, e, hp => by
    simp only [ends, List.mem_singleton]
    exact ⟨fun h => h ▸ .eps _, fun h => by cases h; rfl⟩
  | .cls f, p, e, hp => by
    simp only [ends]
    constructor
    · intro h
      split at h
      · rename_i hc; simp only [List.mem_singleton] at h; subst h; exact .cls _ _ hc.1 hc.2
      · simp at h
    · intro h
      cases h with
      | cls _ _ h hf => rw [if_pos ⟨h, hf⟩]; simp
  | .bol, p, e, hp => by
    simp only [ends]
    constructor
    · intro h
      split at h
      · rename_i hc; simp only [List.mem_singleton] at h; subst h; subst hc; exact .bol
      · simp at h
    · intro h; cases h; simp
  | .eol, p, e, hp => by
    simp only [ends]
    constructor
    · intro h
      split at h
      · rename_i hc; simp only [List.mem_singleton] at h; subst h; subst hc; exact .eol
      · simp at h
    · intro h; cases h; simp
  | .wordb b, p, e, hp => by
    simp only [ends]
    constructor
    · intro h
      split at h
      · rename_i hc; simp only [List.mem_singleton] at h; subst h; exact .wordb _ _ hc
      · simp at h
    · intro h; cases h with | wordb _ _ h => rw [if_pos h]; simp
  | .cat a b, p, e, hp => by
    simp only [ends, List.mem_flatMap]
    constructor
    · rintro ⟨q, h1, h2⟩
      have h3 := (mem_ends s a p q hp).1 h1
      exact .cat _ _ _ _ _ h3 ((mem_ends s b q e (h3.le hp).2).1 h2)
    · intro h
      cases h with
      | cat _ _ _ q _ h1 h2 => exact ⟨q, (mem_ends s a p q hp).2 h1, (mem_ends s b q e (h1.le hp).2).2 h2⟩
  | .alt a b, p, e, hp => by
    simp only [ends, List.mem_append, mem_ends s a p e hp, mem_ends s b p e hp]
    constructor
    · rintro (h | h)
      · exact .altL _ _ _ _ h
      · exact .altR _ _ _ _ h
    · intro h
      cases h with
      | altL _ _ _ _ h => exact .inl h
      | altR _ _ _ _ h => exact .inr h
  | .star g a, p, e, hp => by
    simp only [ends]
    constructor
    · exact starEnds_sound (fun p e hp h => (mem_ends s a p e hp).1 h) _ _ _ hp
    · intro h
      exact starEnds_complete (fun p e hp h => (mem_ends s a p e hp).2 h) h hp _ (by omega)

/-! ### Searching -/

/-- The leftmost match at or behind the rune boundary `p`. Fuel bounds the number of runes. -/
def findFrom (s : Bytes) (r : Rx) : Nat → Nat → Option (Nat × Nat)
  | 0, _ => none
  | f + 1, p => match ends s r p with
    | e :: _ => some (p, e)
    | [] => if p < s.length then findFrom s r f (runeStep s p) else none

/-- All successive matches, as `FindAllStringIndex` finds them: `prev` is the end of the previous match. Fuel bounds the searches. -/
def findAllFrom (s : Bytes) (r : Rx) : Nat → Nat → Option Nat → List (Nat × Nat)
  | 0, _, _ => []
  | f + 1, p, prev => match findFrom s r (s.length + 1) p with
    | none => []
    | some (i, j) =>
      let rest := if i = j then (if i < s.length then findAllFrom s r f (runeStep s i) (some j) else [])
        else findAllFrom s r f j (some j)
      if i = j ∧ prev = some i then rest else (i, j) :: rest

/-- The `n`-th rune boundary. -/
def boundary (s : Bytes) : Nat → Nat
  | 0 => 0
  | n + 1 => runeStep s (boundary s n)

/-- A rune boundary of `s`. -/
def IsBoundary (s : Bytes) (p : Nat) : Prop := ∃ n, boundary s n = p

theorem boundary_lt (s : Bytes) (n : Nat) : boundary s n < boundary s (n + 1) := by
  simp only [boundary, runeStep]; omega

theorem boundary_mono (s : Bytes) {m n : Nat} (h : m ≤ n) : boundary s m ≤ boundary s n := by
  induction n with
  | zero => rw [Nat.le_zero.1 h]; exact Nat.le_refl _
  | succ n ih =>
    rcases Nat.lt_or_ge m (n + 1) with hlt | hge
    · exact Nat.le_trans (ih (by omega)) (Nat.le_of_lt (boundary_lt s n))
    · rw [show m = n + 1 by omega]; exact Nat.le_refl _

/-- No boundary lies strictly between a boundary and the next. -/
theorem boundary_next {s : Bytes} {p a : Nat} (hp : IsBoundary s p) (ha : IsBoundary s a) (h : p < a) : runeStep s p ≤ a := by
  obtain ⟨m, rfl⟩ := hp
  obtain ⟨n, rfl⟩ := ha
  have : m < n := by
    refine Classical.byContradiction fun hge => ?_
    have := boundary_mono s (Nat.le_of_not_lt hge)
    omega
  exact boundary_mono s (show m + 1 ≤ n from this)

theorem IsBoundary.step {s : Bytes} {p : Nat} (h : IsBoundary s p) : IsBoundary s (runeStep s p) := by
  obtain ⟨n, rfl⟩ := h; exact ⟨n + 1, rfl⟩

theorem IsBoundary.zero (s : Bytes) : IsBoundary s 0 := ⟨0, rfl⟩

theorem IsBoundary.end_ {s : Bytes} {p : Nat} (h : IsBoundary s p) (hp : p ≤ s.length) : IsBoundary s s.length := by
  generalize hd : s.length - p = d
  induction d using Nat.strongRecOn generalizing p with
  | _ d ih =>
    rcases Nat.lt_or_ge p s.length with hlt | hge
    · have h1 := runeStep_le s p hlt
      exact ih (s.length - runeStep s p) (by omega) h.step h1.2 rfl
    · rw [show s.length = p by omega]; exact h

theorem Matches.boundary {s : Bytes} {r : Rx} {p q : Nat} (h : Matches s r p q) : IsBoundary s p → IsBoundary s q := by
  induction h with
  | eps p => exact id
  | cls f p h hf => exact IsBoundary.step
  | bol => exact id
  | eol => exact id
  | wordb b p h => exact id
  | cat a b p q r _ _ ih1 ih2 => exact fun h => ih2 (ih1 h)
  | altL a b p q _ ih => exact ih
  | altR a b p q _ ih => exact ih
  | starNil g a p => exact id
  | starCons g a p q r _ _ ih1 ih2 => exact fun h => ih2 (ih1 h)

/-- The matches of an expression in a text: they begin at rune boundaries. -/
def RxMatch (r : Rx) (s : Bytes) (i j : Nat) : Prop := IsBoundary s i ∧ i ≤ s.length ∧ Matches s r i j

theorem findFrom_spec (s : Bytes) (r : Rx) : ∀ f p, p ≤ s.length → IsBoundary s p → s.length < p + f →
    (∀ i j, findFrom s r f p = some (i, j) → RxMatch r s i j ∧ p ≤ i ∧ ∀ a c, p ≤ a → RxMatch r s a c → i ≤ a) ∧
    (findFrom s r f p = none → ∀ a c, p ≤ a → ¬ RxMatch r s a c) := by
  intro f
  induction f with
  | zero => intro p hp _ hf; omega
  | succ f ih =>
    intro p hp hb hf
    simp only [findFrom]
    cases he : ends s r p with
    | cons e l =>
      constructor
      · intro i j h
        simp only [Option.some.injEq, Prod.mk.injEq] at h
        obtain ⟨rfl, rfl⟩ := h
        exact ⟨⟨hb, hp, (mem_ends s r p e hp).1 (by simp [he])⟩, Nat.le_refl _, fun a c h _ => h⟩
      · intro h; cases h
    | nil =>
      have hno : ∀ c, ¬ RxMatch r s p c := fun c hc => by
        have := (mem_ends s r p c hp).2 hc.2.2
        simp [he] at this
      by_cases hlt : p < s.length
      · rw [if_pos hlt]
        have h1 := runeStep_le s p hlt
        obtain ⟨i1, i2⟩ := ih (runeStep s p) h1.2 hb.step (by omega)
        have hstep : ∀ a c, p ≤ a → RxMatch r s a c → runeStep s p ≤ a := by
          intro a c ha hc
          rcases Nat.lt_or_ge p a with h | h
          · exact boundary_next hb hc.1 h
          · rw [show a = p by omega] at hc; exact absurd hc (hno c)
        constructor
        · intro i j h
          obtain ⟨k1, k2, k3⟩ := i1 i j h
          exact ⟨k1, by omega, fun a c ha hc => k3 a c (hstep a c ha hc) hc⟩
        · intro h a c ha hc
          exact i2 h a c (hstep a c ha hc) hc
      · rw [if_neg hlt]
        refine ⟨fun i j h => by (cases h), fun _ a c ha hc => ?_⟩
        have := hc.2.1
        rw [show a = p by omega] at hc
        exact hno c hc

theorem findAllFrom_spec (s : Bytes) (r : Rx) : ∀ f p prev, p ≤ s.length → IsBoundary s p → s.length < p + f →
    (∀ a c, Behind prev a → RxMatch r s a c → p ≤ a) → (∀ e, prev = some e → e ≤ p) →
    Successive (RxMatch r s) prev (findAllFrom s r f p prev) := by
  intro f
  induction f with
  | zero => intro p prev hp _ hf; omega
  | succ f ih =>
    intro p prev hp hb hf hfrom hprev
    simp only [findAllFrom]
    obtain ⟨h1, h2⟩ := findFrom_spec s r (s.length + 1) p hp hb (by omega)
    cases hr : findFrom s r (s.length + 1) p with
    | none => exact .nil _ fun a c ha hc => h2 hr a c (hfrom a c ha hc) hc
    | some ij =>
      obtain ⟨i, j⟩ := ij
      obtain ⟨k1, k2, k3⟩ := h1 i j hr
      have hij := k1.2.2.le k1.2.1
      -- the matches behind this one
      have hrest : Successive (RxMatch r s) (some j)
          (if i = j then (if i < s.length then findAllFrom s r f (runeStep s i) (some j) else []) else findAllFrom s r f j (some j)) := by
        split
        · rename_i hij0
          subst hij0
          split
          · rename_i hlt
            have h3 := runeStep_le s i hlt
            exact ih _ _ h3.2 k1.1.step (by omega) (fun a c ha hc => boundary_next k1.1 hc.1 ha)
              (fun e he => by cases he; omega)
          · rename_i hge
            refine .nil _ fun a c ha hc => ?_
            have := hc.2.1
            simp only [Behind] at ha
            omega
        · exact ih _ _ hij.2 (k1.2.2.boundary k1.1) (by omega) (fun a c ha hc => by simp only [Behind] at ha; omega)
            (fun e he => by cases he; omega)
      simp only
      split
      · rename_i hc
        obtain ⟨rfl, rfl⟩ := hc
        exact hrest
      · rename_i hc
        refine .cons _ _ _ _ k1 ?_ ?_ hrest
        · intro e he
          have := hprev e he
          rcases Nat.lt_or_ge e i with h | h
          · exact .inl h
          · have hei : e = i := by omega
            subst hei
            refine .inr ⟨rfl, ?_⟩
            rcases Nat.lt_or_ge e j with h' | h'
            · exact h'
            · exact absurd ⟨by omega, he⟩ hc
        · intro a c ha hc'
          exact k3 a c (hfrom a c ha hc') hc'

/-! ### Patterns -/

/-- Escapes that stand for a class. -/
def escClass : Char → Option (Char → Bool)
  | 'd' => some Char.isDigit
  | 'D' => some fun c => !c.isDigit
  | 'w' => some isWordRune
  | 'W' => some fun c => !isWordRune c
  | 's' => some fun c => c == ' ' || c == '\t' || c == '\n' || c == '\x0c' || c == '\r'
  | 'S' => some fun c => !(c == ' ' || c == '\t' || c == '\n' || c == '\x0c' || c == '\r')
  | _ => none

/-- Escapes that stand for a character; `none` for unknown ones. -/
def escChar : Char → Option Char
  | 'n' => some '\n'
  | 't' => some '\t'
  | 'r' => some '\r'
  | c => if c.isAlphanum then none else some c

/-- The items of a bracket expression up to the closing bracket. -/
def rxClass : Nat → List Char → Option ((Char → Bool) × List Char)
  | 0, _ => none
  | f + 1, cs =>
    let more (g : Char → Bool) (r : List Char) : Option ((Char → Bool) × List Char) :=
      match r with
      | ']' :: r' => some (g, r')
      | _ => (rxClass f r).map fun (h, r') => (fun c => g c || h c, r')
    match cs with
    | '\\' :: c :: r => match escClass c with
      | some g => more g r
      | none => match escChar c with
        | some d => more (· == d) r
        | none => none
    | a :: '-' :: b :: r => if b = ']' then more (fun c => c == a || c == '-') (b :: r) else if a ≤ b then more (fun c => decide (a ≤ c ∧ c ≤ b)) r else none
    | a :: r => more (· == a) r
    | [] => none

mutual
/-- Alternatives. -/
def rxAlt : Nat → List Char → Option (Rx × List Char)
  | 0, _ => none
  | f + 1, cs => match rxCat f cs with
    | some (a, '|' :: r) => (rxAlt f r).map fun (b, r') => (.alt a b, r')
    | x => x
/-- Concatenations. -/
def rxCat : Nat → List Char → Option (Rx × List Char)
  | 0, _ => none
  | _ + 1, [] => some (.eps, [])
  | f + 1, c :: cs =>
    if c = ')' ∨ c = '|' then some (.eps, c :: cs)
    else match rxAtom f c cs with
      | none => none
      | some (a, r) =>
        let (a, r) := match r with
          | '*' :: '?' :: r => (Rx.star false a, r)
          | '+' :: '?' :: r => (.cat a (.star false a), r)
          | '?' :: '?' :: r => (.alt .eps a, r)
          | '*' :: r => (.star true a, r)
          | '+' :: r => (.cat a (.star true a), r)
          | '?' :: r => (.alt a .eps, r)
          | r => (a, r)
        (rxCat f r).map fun (b, r') => (.cat a b, r')
/-- One atom that begins with `c`. -/
def rxAtom : Nat → Char → List Char → Option (Rx × List Char)
  | 0, _, _ => none
  | f + 1, c, cs => match c, cs with
    | '(', '?' :: ':' :: r => match rxAlt f r with
      | some (a, ')' :: r') => some (a, r')
      | _ => none
    | '(', r => match rxAlt f r with
      | some (a, ')' :: r') => some (a, r')
      | _ => none
    | '[', '^' :: r => (rxClass (r.length + 1) r).map fun (g, r') => (.cls fun c => !g c, r')
    | '[', r => (rxClass (r.length + 1) r).map fun (g, r') => (.cls g, r')
    | '.', r => some (.cls fun c => c != '\n', r)
    | '^', r => some (.bol, r)
    | '$', r => some (.eol, r)
    | '\\', 'b' :: r => some (.wordb true, r)
    | '\\', 'B' :: r => some (.wordb false, r)
    | '\\', c :: r => match escClass c with
      | some g => some (.cls g, r)
      | none => (escChar c).map fun d => (.cls (· == d), r)
    | '\\', [] => none
    | '*', _ => none
    | '+', _ => none
    | '?', _ => none
    | '{', _ => none
    | c, r => some (.cls (· == c), r)
end

/-- Compile a pattern. -/
def rxCompile (p : Bytes) : Option Rx :=
  let cs := decodeAll p
  match rxAlt (3 * cs.length + 3) cs with
  | some (r, []) => some r
  | _ => none

/-- The compiled expression. -/
def rxRegex (r : Rx) : Regex where
  find s := findFrom s r (s.length + 1) 0
  findAll s := findAllFrom s r (s.length + 1) 0 none

/-- The engine meets the documented contract. -/
theorem rxRegex_contract (r : Rx) : EngineFor (rxRegex r) (RxMatch r) where
  inside s i j h := h.2.2.le h.2.1
  first := {
    sound := fun s i j h => ((findFrom_spec s r _ 0 (by omega) (.zero s) (by omega)).1 i j h).1
    leftmost := fun s i j h a c hc => ((findFrom_spec s r _ 0 (by omega) (.zero s) (by omega)).1 i j h).2.2 a c (by omega) hc
    complete := fun s h a c hc => (findFrom_spec s r _ 0 (by omega) (.zero s) (by omega)).2 h a c (by omega) hc }
  all s := findAllFrom_spec s r _ 0 none (by omega) (.zero s) (by omega) (fun _ _ _ _ => by omega) (fun e he => by cases he)

/-- The parameters of the model with this engine; case mapping of non-ASCII runes is the identity. -/
@[instance_reducible] def reExt : Ext where
  f2i _ := 0
  isPrint _ := false
  nameRune _ := false
  upper c := c
  lower c := c
  compile p := match rxCompile p with
    | some r => .ok (rxRegex r)
    | none => .error (b! "error parsing regexp")

/-- Every pattern this instance compiles meets the contract. -/
theorem reExt_contract (p : Bytes) (re : Regex) (h : reExt.compile p = .ok re) : ∃ M, EngineFor re M := by
  change (match rxCompile p with | some r => Except.ok (rxRegex r) | none => Except.error (b! "error parsing regexp")) = Except.ok re at h
  split at h
  · rename_i r _; cases h; exact ⟨_, rxRegex_contract r⟩
  · cases h

theorem Successive.mem {M : Nat → Nat → Prop} {prev : Option Nat} {l : List (Nat × Nat)} (h : Successive M prev l) :
    ∀ x ∈ l, M x.1 x.2 := by
  induction h with
  | nil => intro x hx; cases hx
  | cons prev i j l hm _ _ _ ih =>
    intro x hx
    rcases List.mem_cons.1 hx with rfl | hx
    · exact hm
    · exact ih x hx

theorem reExt_lawful : @LawfulExt reExt := by
  refine @LawfulExt.mk reExt ?_ ?_
  · intro p re s i j hc hf
    obtain ⟨M, hM⟩ := reExt_contract p re hc
    exact hM.inside s i j (hM.first.sound s i j hf)
  · intro p re s i j hc hf
    obtain ⟨M, hM⟩ := reExt_contract p re hc
    exact hM.inside s i j ((hM.all s).mem (i, j) hf)

end Texted
