import Verif.Model.Expand
import Verif.Spec.Regexp
import Verif.Lemmas.Number
import Verif.Lemmas.JsonText
import Verif.Lemmas.LexState
/- The expansion of replacement templates. -/
namespace Texted

/-! ### Numbers -/

theorem natDigits_succ (f n : Nat) : natDigits (f + 1) n =
    if n < 10 then [UInt8.ofNat (48 + n)] else natDigits f (n / 10) ++ [UInt8.ofNat (48 + n % 10)] := rfl

theorem natDigits_fuel (f g n : Nat) (hf : n < 2 ^ (f + 1)) (hg : n < 2 ^ (g + 1)) : natDigits (f + 1) n = natDigits (g + 1) n := by
  induction f generalizing g n with
  | zero =>
    have : n < 10 := by omega
    rw [natDigits_succ 0, natDigits_succ g, if_pos this, if_pos this]
  | succ f ih =>
    rw [natDigits_succ (f + 1), natDigits_succ g]
    split
    · rfl
    · rename_i h
      cases g with
      | zero => omega
      | succ g =>
        have hp : 2 ^ (f + 1 + 1) = 2 * 2 ^ (f + 1) := by rw [Nat.pow_succ]; omega
        have hp' : 2 ^ (g + 1 + 1) = 2 * 2 ^ (g + 1) := by rw [Nat.pow_succ]; omega
        rw [ih g (n / 10) (by omega) (by omega)]

theorem natDec_small (n : Nat) (h : n < 10) : natDec n = [UInt8.ofNat (48 + n)] := by
  rw [natDec, natDigits, if_pos h]

theorem natDec_snoc (n : Nat) (h : 10 ≤ n) : natDec n = natDec (n / 10) ++ [UInt8.ofNat (48 + n % 10)] := by
  rw [natDec, natDigits, if_neg (by omega)]
  have h1 : n < 2 ^ (n.log2 + 1) := Nat.lt_log2_self
  cases hl : n.log2 with
  | zero => rw [hl] at h1; omega
  | succ f =>
    rw [hl] at h1
    have hp : 2 ^ (f + 1 + 1) = 2 * 2 ^ (f + 1) := by rw [Nat.pow_succ]; omega
    rw [natDigits_fuel f (n / 10).log2 (n / 10) (by omega) Nat.lt_log2_self]
    rfl

theorem refNumberLoop_snoc (a : Bytes) (c : UInt8) : ∀ num, refNumberLoop num (a ++ [c]) =
    match refNumberLoop num a with
    | none => none
    | some v => if c < 48 ∨ 57 < c ∨ v ≥ 100000000 then none else some (v * 10 + (c.toNat - 48)) := by
  induction a with
  | nil => intro num; simp only [List.nil_append, refNumberLoop]
  | cons d a ih =>
    intro num
    rw [List.cons_append, refNumberLoop, refNumberLoop]
    split
    · rfl
    · exact ih _

theorem digit_not_out (d : Nat) (h : d < 10) : ¬ (UInt8.ofNat (48 + d) < 48 ∨ 57 < UInt8.ofNat (48 + d)) := by
  rw [UInt8.lt_iff_toNat_lt, UInt8.lt_iff_toNat_lt, digit_ofNat d h]
  simp only [UInt8.reduceToNat]; omega

theorem refNumberLoop_natDec (n : Nat) (h : n < 1000000000) : refNumberLoop 0 (natDec n) = some n := by
  induction n using Nat.strongRecOn with
  | ind n ih =>
    rcases Nat.lt_or_ge n 10 with hlt | hge
    · have h1 := digit_not_out n hlt
      have h2 := digit_ofNat n hlt
      rw [natDec_small n hlt, refNumberLoop, if_neg (fun h => h1 (h.imp_right fun h => h.resolve_right (by omega))), refNumberLoop, h2]
      simp
    · have h1 := digit_not_out (n % 10) (by omega)
      have h2 := digit_ofNat (n % 10) (by omega)
      rw [natDec_snoc n hge, refNumberLoop_snoc, ih (n / 10) (by omega) (by omega)]
      simp only
      rw [if_neg (fun h => h1 (h.imp_right fun h => h.resolve_right (by omega))), h2]
      congr 1; omega

theorem refNumber_natDec (n : Nat) (h : n < 1000000000) : refNumber (natDec n) = some n := by
  rw [refNumber, if_neg, refNumberLoop_natDec n h]
  rintro ⟨h1, h2⟩
  rcases Nat.eq_zero_or_pos n with rfl | hp
  · revert h2; decide
  · obtain ⟨c, r, h3, h4⟩ := natDec_head n hp
    rw [h3] at h1
    exact h4 (by simpa using h1)

theorem refNumberLoop_some (name : Bytes) : ∀ n, name ≠ [] → (name.head? = some 48 → name.length = 1) →
    refNumberLoop 0 name = some n → name = natDec n ∧ n < 1000000000 := by
  induction hl : name.length using Nat.strongRecOn generalizing name with
  | ind k ih =>
    intro n hne hz hr
    rcases List.eq_nil_or_concat name with rfl | ⟨a, c, rfl⟩
    · exact absurd rfl hne
    · rw [List.concat_eq_append] at *
      rw [refNumberLoop_snoc] at hr
      cases hv : refNumberLoop 0 a with
      | none => rw [hv] at hr; cases hr
      | some v =>
        rw [hv] at hr
        simp only at hr
        split at hr
        · cases hr
        · rename_i hc
          injection hr with hr
          have hc1 : 48 ≤ c.toNat ∧ c.toNat ≤ 57 := by
            rw [UInt8.lt_iff_toNat_lt, UInt8.lt_iff_toNat_lt] at hc
            simp only [UInt8.reduceToNat] at hc; omega
          have hce : UInt8.ofNat (48 + (c.toNat - 48)) = c := by
            rw [show 48 + (c.toNat - 48) = c.toNat by omega]; simp
          cases a with
          | nil =>
            simp only [refNumberLoop, Option.some.injEq] at hv
            subst hv
            have : n = c.toNat - 48 := by omega
            rw [natDec_small n (by omega), this, hce]
            exact ⟨rfl, by omega⟩
          | cons d a =>
            have hd : d ≠ 48 := by
              rintro rfl
              have := hz rfl
              simp only [List.length_append, List.length_cons, List.length_nil] at hl
              omega
            obtain ⟨h1, h2⟩ := ih (d :: a).length (by rw [← hl]; simp) (d :: a) rfl v (by simp)
              (fun h => absurd (by simpa using h) hd) hv
            have hv0 : v ≠ 0 := by
              rintro rfl
              have : natDec 0 = [48] := by decide
              rw [this] at h1
              injection h1 with h1 _
              exact hd h1
            have e1 : n / 10 = v := by omega
            have e2 : n % 10 = c.toNat - 48 := by omega
            refine ⟨?_, by omega⟩
            rw [natDec_snoc n (by omega), e1, e2, hce, ← h1]

theorem refNumber_some (name : Bytes) (n : Nat) (hne : name ≠ []) (h : refNumber name = some n) : name = natDec n ∧ n < 1000000000 := by
  rw [refNumber] at h
  split at h
  · cases h
  · rename_i hc
    refine refNumberLoop_some name n hne (fun hz => ?_) h
    have : 0 < name.length := List.length_pos_iff.2 hne
    have : ¬ name.length > 1 := fun h => hc ⟨hz, h⟩
    omega

/-! ### Names -/

theorem mem_takeWhile_p {p : UInt8 → Bool} {c : UInt8} {l : Bytes} (h : c ∈ l.takeWhile p) : p c = true := by
  induction l with
  | nil => cases h
  | cons d l ih =>
    rw [List.takeWhile_cons] at h
    split at h
    · rcases List.mem_cons.1 h with rfl | h
      · assumption
      · exact ih h
    · cases h

instance (c : UInt8) : Decidable (nameByte c) := by unfold nameByte; infer_instance

theorem nameByte_lt {c : UInt8} (h : nameByte c) : c.toNat < 128 := by
  simp only [nameByte, UInt8.le_iff_toNat_le, UInt8.reduceToNat] at h
  rcases h with h | h | h | h
  · omega
  · omega
  · subst h; decide
  · omega

theorem name_table : ∀ n, n < 128 → (nameByte (UInt8.ofNat n) ↔ ((Char.ofNat n).isAlphanum || Char.ofNat n = '_') = true) := by
  decide

theorem nameRune_ascii [Ext] (c : UInt8) (h : c.toNat < 128) : nameRune (Char.ofNat c.toNat) = true ↔ nameByte c := by
  have h1 := name_table c.toNat h
  have h2 : (Char.ofNat c.toNat).toNat = c.toNat := by
    have : ∀ n, n < 128 → (Char.ofNat n).toNat = n := by decide
    exact this _ h
  rw [nameRune, h2, if_pos h, ← h1]
  simp

theorem nameLength_ascii [Ext] (t : Bytes) (h : ∀ c ∈ t, c.toNat < 128) : ∀ f, t.length ≤ f →
    nameLength f t = (t.takeWhile fun c => nameByte c).length := by
  induction t with
  | nil => intro f _; cases f <;> rfl
  | cons c t ih =>
    intro f hf
    cases f with
    | zero => simp at hf
    | succ f =>
      have hc := h c (by simp)
      rw [nameLength, decodeRune_ascii c t hc, List.takeWhile_cons]
      simp only
      by_cases hn : nameByte c
      · rw [if_pos ((nameRune_ascii c hc).2 hn)]
        rw [if_pos (by simpa using hn)]
        rw [List.drop_succ_cons, List.drop_zero, ih (fun c hc => h c (by simp [hc])) f (by simp at hf; omega), List.length_cons]
        omega
      · rw [if_neg (fun h => hn ((nameRune_ascii c hc).1 h)), if_neg (by simpa using hn)]
        rfl

theorem takeWhile_name (name t : Bytes) (h1 : ∀ c ∈ name, nameByte c) (h2 : ∀ c ∈ t.head?, ¬ nameByte c) :
    (name ++ t).takeWhile (fun c => nameByte c) = name := by
  induction name with
  | nil =>
    cases t with
    | nil => rfl
    | cons c t => rw [List.nil_append, List.takeWhile_cons, if_neg]; have := h2 c (by simp); simpa using this
  | cons c name ih =>
    rw [List.cons_append, List.takeWhile_cons, if_pos (by simpa using h1 c (by simp)), ih fun c hc => h1 c (by simp [hc])]

theorem extractRef_bare [Ext] (name t : Bytes) (h : IsName name) (h2 : ∀ c ∈ t.head?, ¬ nameByte c) (ha : ∀ c ∈ t, c.toNat < 128) :
    extractRef (name ++ t) = some (name, t) := by
  have hasc : ∀ c ∈ name ++ t, c.toNat < 128 := by
    intro c hc
    rcases List.mem_append.1 hc with hc | hc
    · exact nameByte_lt (h.2 c hc)
    · exact ha c hc
  obtain ⟨c, r, rfl⟩ := List.exists_cons_of_ne_nil h.1
  have hc : c ≠ 123 := by
    rintro rfl
    have := h.2 123 (by simp)
    revert this; decide
  rw [extractRef, if_neg (by simpa using hc)]
  simp only [nameLength_ascii _ hasc _ (Nat.le_refl _), takeWhile_name _ _ h.2 h2]
  rw [if_neg (by simp), List.take_left', List.drop_left']
  · rfl
  · rfl

theorem extractRef_braced [Ext] (name t : Bytes) (h : IsName name) (ha : ∀ c ∈ t, c.toNat < 128) :
    extractRef (123 :: (name ++ 125 :: t)) = some (name, t) := by
  have hasc : ∀ c ∈ name ++ 125 :: t, c.toNat < 128 := by
    intro c hc
    rcases List.mem_append.1 hc with hc | hc
    · exact nameByte_lt (h.2 c hc)
    · rcases List.mem_cons.1 hc with rfl | hc
      · decide
      · exact ha c hc
  have h2 : ∀ c ∈ (125 :: t).head?, ¬ nameByte c := by
    intro c hc
    simp only [List.head?_cons, Option.mem_def, Option.some.injEq] at hc
    subst hc; decide
  have hh : (123 :: (name ++ 125 :: t)).head? = some 123 := rfl
  rw [extractRef, if_pos hh]
  simp only [List.drop_succ_cons, List.drop_zero, nameLength_ascii _ hasc _ (Nat.le_refl _), takeWhile_name _ _ h.2 h2]
  rw [if_neg (by simpa using h.1), if_pos (by simp), List.take_left' rfl]
  simp [List.drop_append]

theorem extractRef_none [Ext] (t : Bytes) (ha : ∀ c ∈ t, c.toNat < 128)
    (h : ∀ name r, IsName name → t ≠ name ++ r ∧ t ≠ 123 :: (name ++ 125 :: r)) : extractRef t = none := by
  have hsplit : ∀ u : Bytes, u = u.takeWhile (fun c => decide (nameByte c)) ++ u.dropWhile (fun c => decide (nameByte c)) :=
    fun u => (List.takeWhile_append_dropWhile ..).symm
  have hall : ∀ u : Bytes, ∀ c ∈ u.takeWhile (fun c => decide (nameByte c)), nameByte c :=
    fun u c hc => by simpa using mem_takeWhile_p hc
  rw [extractRef]
  split
  · rename_i hh
    cases t with
    | nil => simp at hh
    | cons x u =>
      simp only [List.head?_cons, Option.some.injEq] at hh
      subst hh
      simp only [List.drop_succ_cons, List.drop_zero, nameLength_ascii u (fun c hc => ha c (by simp [hc])) _ (Nat.le_refl _)]
      split
      · rfl
      · rename_i h0
        split
        · rename_i h1
          exfalso
          have hn : IsName (u.takeWhile fun c => decide (nameByte c)) := ⟨fun he => h0 (by rw [he]; rfl), hall u⟩
          have hd : ∃ r, u.dropWhile (fun c => decide (nameByte c)) = 125 :: r := by
            rw [hsplit u, List.getElem?_append_right (by rw [← hsplit u]; exact Nat.le_refl _)] at h1
            rw [← hsplit u, Nat.sub_self] at h1
            cases hd : u.dropWhile (fun c => decide (nameByte c)) with
            | nil => rw [hd] at h1; simp at h1
            | cons y r => rw [hd] at h1; simp at h1; exact ⟨r, by rw [h1]⟩
          obtain ⟨r, hd⟩ := hd
          refine (h _ r hn).2 ?_
          rw [← hd, ← hsplit u]
        · rfl
  · simp only [nameLength_ascii t ha _ (Nat.le_refl _)]
    split
    · rfl
    · rename_i h0
      exfalso
      exact (h _ _ ⟨fun he => h0 (by rw [he]; rfl), hall t⟩).1 (hsplit t)

/-! ### References and templates -/

theorem lookupName_eq (s name : Bytes) : ∀ ns gs, lookupName s name ns gs =
    match (ns.zip gs).find? fun x => decide (x.1 = name ∧ x.2.isSome) with
    | some (_, some g) => spanText s g
    | _ => [] := by
  intro ns
  induction ns with
  | nil => intro gs; rfl
  | cons n ns ih =>
    intro gs
    cases gs with
    | nil => rfl
    | cons g gs =>
      rw [lookupName, List.zip_cons_cons, List.find?_cons]
      split
      · rename_i h
        simp only [h, and_self, decide_true]
        cases g with
        | none => simp at h
        | some g => rfl
      · rename_i h
        simp only [h, decide_false]
        exact ih gs

theorem refText_refers (re : Regex) (s : Bytes) (m : Nat × Nat) (name : Bytes) (h : name ≠ []) : Refers re s m name (refText re s m name) := by
  rw [refText]
  cases hr : refNumber name with
  | none =>
    refine .inr ⟨fun n hn he => ?_, ?_⟩
    · rw [he, refNumber_natDec n hn] at hr; cases hr
    · simp only; rw [lookupName_eq]; rfl
  | some k =>
    obtain ⟨h1, h2⟩ := refNumber_some name k h hr
    refine .inl ⟨k, h2, h1, ?_⟩
    cases k with
    | zero => rfl
    | succ k =>
      simp only [submatchText]
      cases (re.groups s m)[k]? with
      | none => rfl
      | some g => cases g <;> rfl

theorem Refers.unique {re : Regex} {s : Bytes} {m : Nat × Nat} {name o : Bytes} (hne : name ≠ []) (h : Refers re s m name o) :
    o = refText re s m name := by
  have h' := refText_refers re s m name hne
  rcases h with ⟨n, h1, h2, h3⟩ | ⟨h1, h3⟩ <;> rcases h' with ⟨n', h1', h2', h3'⟩ | ⟨h1', h3'⟩
  · have := refNumber_natDec n h1
    rw [← h2, h2', refNumber_natDec n' h1'] at this
    injection this with this
    rw [h3, h3', this]
  · exact absurd h2 (h1' n h1)
  · exact absurd h2' (h1 n' h1')
  · rw [h3, h3']

theorem expandLoop_expands [Ext] {re : Regex} {s : Bytes} {m : Nat × Nat} {t o : Bytes} (h : Expands re s m t o) :
    (∀ c ∈ t, c.toNat < 128) → ∀ f, t.length ≤ f → expandLoop re s m f t = o := by
  induction h with
  | nil => intro _ f _; cases f <;> rfl
  | char c t o hc _ ih =>
    intro ha f hf
    cases f with
    | zero => simp at hf
    | succ f => rw [expandLoop, if_pos hc, ih (fun c hc => ha c (by simp [hc])) f (by simp at hf; omega)]
  | dollar t o _ ih =>
    intro ha f hf
    cases f with
    | zero => simp at hf
    | succ f =>
      rw [expandLoop, if_neg (by simp), if_pos (by simp), List.drop_succ_cons, List.drop_zero,
        ih (fun c hc => ha c (by simp [hc])) f (by simp at hf; omega)]
  | braced name x t o hn hx _ ih =>
    intro ha f hf
    cases f with
    | zero => simp at hf
    | succ f =>
      have hat : ∀ c ∈ t, c.toNat < 128 := fun c hc => ha c (by simp [hc])
      rw [expandLoop, if_neg (by simp), if_neg (by simp), extractRef_braced name t hn hat]
      simp only
      rw [ih hat f (by simp at hf; omega), hx.unique hn.1]
  | bare name x t o hn ht hx _ ih =>
    intro ha f hf
    cases f with
    | zero => simp at hf
    | succ f =>
      have hat : ∀ c ∈ t, c.toNat < 128 := fun c hc => ha c (by simp [hc])
      have hd : (name ++ t).head? ≠ some 36 := by
        obtain ⟨c, r, rfl⟩ := List.exists_cons_of_ne_nil hn.1
        have := hn.2 c (by simp)
        rintro h
        simp only [List.cons_append, List.head?_cons, Option.some.injEq] at h
        subst h
        revert this; decide
      rw [expandLoop, if_neg (by simp), if_neg hd, extractRef_bare name t hn ht hat]
      simp only
      rw [ih hat f (by simp at hf; omega), hx.unique hn.1]
  | lone t o h1 h2 _ ih =>
    intro ha f hf
    cases f with
    | zero => simp at hf
    | succ f =>
      have hat : ∀ c ∈ t, c.toNat < 128 := fun c hc => ha c (by simp [hc])
      rw [expandLoop, if_neg (by simp), if_neg h1, extractRef_none t hat h2]
      simp only
      rw [ih hat f (by simp at hf; omega)]

theorem expands_total (re : Regex) (s : Bytes) (m : Nat × Nat) (t : Bytes) : ∃ o, Expands re s m t o := by
  induction hl : t.length using Nat.strongRecOn generalizing t with
  | ind k ih =>
    cases t with
    | nil => exact ⟨[], .nil⟩
    | cons c t =>
      simp only [List.length_cons] at hl
      by_cases hc : c = 36
      · subst hc
        by_cases h36 : t.head? = some 36
        · cases t with
          | nil => simp at h36
          | cons d u =>
            simp only [List.head?_cons, Option.some.injEq] at h36
            subst h36
            obtain ⟨o, ho⟩ := ih u.length (by simp at hl; omega) u rfl
            exact ⟨_, .dollar u o ho⟩
        · by_cases hb : ∃ name r, IsName name ∧ t = 123 :: (name ++ 125 :: r)
          · obtain ⟨name, r, hn, rfl⟩ := hb
            obtain ⟨o, ho⟩ := ih r.length (by simp at hl; omega) r rfl
            exact ⟨_, .braced name _ r o hn (refText_refers re s m name hn.1) ho⟩
          · by_cases hn : ∃ name r, IsName name ∧ t = name ++ r
            · obtain ⟨name, r, hn, rfl⟩ := hn
              have hw : (name ++ r).takeWhile (fun c => decide (nameByte c)) ≠ [] := by
                obtain ⟨c, u, rfl⟩ := List.exists_cons_of_ne_nil hn.1
                rw [List.cons_append, List.takeWhile_cons, if_pos (by simpa using hn.2 c (by simp))]
                simp
              generalize name ++ r = t at *
              have hsp := List.takeWhile_append_dropWhile (p := fun c => decide (nameByte c)) (l := t)
              generalize hw1 : t.takeWhile (fun c => decide (nameByte c)) = w at *
              have hwn : IsName w := ⟨hw, fun c hc => by rw [← hw1] at hc; simpa using mem_takeWhile_p hc⟩
              have hdr : ∀ c ∈ (t.dropWhile fun c => decide (nameByte c)).head?, ¬ nameByte c := by
                intro c hc
                have := List.head?_dropWhile_not (fun c => decide (nameByte c)) t
                rw [Option.mem_def] at hc
                rw [hc] at this
                simpa using this
              generalize t.dropWhile (fun c => decide (nameByte c)) = r' at *
              subst hsp
              have : 0 < w.length := List.length_pos_iff.2 hw
              obtain ⟨o, ho⟩ := ih r'.length (by simp at hl; omega) r' rfl
              exact ⟨_, .bare w _ r' o hwn hdr (refText_refers re s m w hw) ho⟩
            · obtain ⟨o, ho⟩ := ih t.length (by omega) t rfl
              refine ⟨_, .lone t o h36 (fun name r h => ⟨fun he => hn ⟨name, r, h, he⟩, fun he => hb ⟨name, r, h, he⟩⟩) ho⟩
      · obtain ⟨o, ho⟩ := ih t.length (by omega) t rfl
        exact ⟨_, .char c t o hc ho⟩

theorem expand_expands [Ext] (re : Regex) (s : Bytes) (m : Nat × Nat) (t : Bytes) (h : ∀ c ∈ t, c.toNat < 128) (o : Bytes) :
    Expands re s m t o ↔ o = expand re s m t := by
  constructor
  · intro he; rw [expand, expandLoop_expands he h _ (Nat.le_refl _)]
  · rintro rfl
    obtain ⟨o, ho⟩ := expands_total re s m t
    rw [expand, expandLoop_expands ho h _ (Nat.le_refl _)]
    exact ho

/-- Without `$`, also with non-ASCII text. -/
theorem expand_literal [Ext] (re : Regex) (s : Bytes) (m : Nat × Nat) (t : Bytes) (h : 36 ∉ t) : expand re s m t = t := by
  have : ∀ f, t.length ≤ f → expandLoop re s m f t = t := by
    induction t with
    | nil => intro f _; cases f <;> rfl
    | cons c t ih =>
      intro f hf
      cases f with
      | zero => simp at hf
      | succ f =>
        rw [expandLoop, if_pos (fun hc => h (by simp [hc])), ih (fun hc => h (by simp [hc])) f (by simp at hf; omega)]
  exact this _ (Nat.le_refl _)

/-- With every `$` doubled, also with non-ASCII text. -/
theorem expand_doubled [Ext] (re : Regex) (s : Bytes) (m : Nat × Nat) (t : Bytes) :
    expand re s m (t.flatMap fun c => if c = 36 then [36, 36] else [c]) = t := by
  have : ∀ f, (t.flatMap fun c => if c = 36 then [36, 36] else [c]).length ≤ f →
      expandLoop re s m f (t.flatMap fun c => if c = 36 then [36, 36] else [c]) = t := by
    induction t with
    | nil => intro f _; cases f <;> rfl
    | cons c t ih =>
      intro f hf
      rw [List.flatMap_cons] at *
      generalize (t.flatMap fun c => if c = 36 then [36, 36] else [c]) = u at *
      by_cases hc : c = 36
      · rw [if_pos hc] at *
        cases f with
        | zero => simp at hf
        | succ f =>
          simp only [List.cons_append, List.nil_append] at *
          rw [expandLoop, if_neg (by simp), if_pos (by simp), List.drop_succ_cons, List.drop_zero, ih f (by simp at hf; omega), hc]
      · rw [if_neg hc] at *
        cases f with
        | zero => simp at hf
        | succ f =>
          simp only [List.cons_append, List.nil_append] at *
          rw [expandLoop, if_pos hc, ih f (by simp at hf; omega)]
  exact this _ (Nat.le_refl _)

end Texted
