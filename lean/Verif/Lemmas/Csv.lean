import Verif.Spec.CommandLine
/- The values of repeatable options are read exactly as one record of comma-separated values. -/
namespace Texted
open Spec

theorem csvNormal_lines (v : Bytes) : csvNormal v = csvLines v := by
  have cons : ∀ (c : UInt8) (r : Bytes), r ≠ [] → csvNormal r = csvLines r → ∀ x, unCRLF x = c :: unCRLF r → unCRLF r ≠ [] → c :: csvNormal r = csvLines x := by
    intro c r _ ih x hx hne
    rw [ih, csvLines, csvLines, hx]
    obtain ⟨d, t, hd⟩ := List.exists_cons_of_ne_nil hne
    rw [hd, List.getLast?_cons_cons, List.dropLast_cons_cons]
    split <;> rfl
  have ne : ∀ r, r ≠ [] → unCRLF r ≠ [] := by
    intro r hr
    match r with
    | [] => exact absurd rfl hr
    | c :: r =>
      unfold unCRLF
      split <;> try simp_all
      split <;> simp
  induction v using csvNormal.induct with
  | case1 => rfl
  | case2 => rfl
  | case3 r ih =>
    rw [csvNormal]
    by_cases hr : r = []
    · subst hr; rfl
    · exact cons 10 r hr ih _ rfl (ne r hr)
  | case4 c r hc ih =>
    rw [csvNormal]
    · refine cons 13 (c :: r) (by simp) ih _ ?_ (ne _ (by simp))
      rw [unCRLF]
      exact hc
    · exact hc
  | case5 c r hc ih =>
    rw [csvNormal]
    · by_cases hr : r = []
      · subst hr
        have : unCRLF [c] = [c] := by rw [unCRLF]; · rfl
                                      · exact hc
        rw [csvLines, this]
        have h13 : c ≠ 13 := hc
        simp [h13, csvNormal]
      · refine cons c r hr ih _ ?_ (ne _ hr)
        rw [unCRLF]
        exact hc
    · exact hc

theorem csvQuoted_escape (f : Bytes) : csvQuoted f = 34 :: csvEscape f ++ [34] := by
  have : csvEscape f = f.flatMap fun c => if c = 34 then [34, 34] else [c] := by
    induction f with
    | nil => rfl
    | cons c r ih => rw [csvEscape, ih, List.flatMap_cons]; split <;> rfl
  rw [csvQuoted, this]; rfl

theorem csvEscape_snoc (f : Bytes) (c : UInt8) : csvEscape (f ++ [c]) = csvEscape f ++ (if c = 34 then [34, 34] else [c]) := by
  induction f with
  | nil =>
    show csvEscape [c] = [] ++ _
    rw [csvEscape]; split <;> rfl
  | cons d r ih => rw [List.cons_append, csvEscape, csvEscape, ih]; split <;> simp

/-- The text already read in a mode. -/
def CsvMode.text : CsvMode → Bytes
  | .start => []
  | .bare f => f
  | .quoted f => 34 :: csvEscape f
  | .closed f => 34 :: csvEscape f ++ [34]

/-- An unquoted field is not empty (or it would not have been begun) and has no special bytes. -/
def CsvMode.Good : CsvMode → Prop
  | .bare f => ∀ c ∈ f, c ≠ 34 ∧ c ≠ 44 ∧ c ≠ 10
  | _ => True

theorem csvEmit_ok {f : Bytes} {r : Except Bytes (List Bytes)} {l : List Bytes} (h : csvEmit f r = .ok l) : ∃ fs, r = .ok fs ∧ l = f :: fs := by
  cases r with
  | ok fs => exact ⟨fs, rfl, by injection h with h; exact h.symm⟩
  | error e => cases h

theorem csvScan_sound (s : Bytes) : ∀ m : CsvMode, m.Good → ∀ l, csvScan m s = .ok l → CsvFields (m.text ++ s) l := by
  induction s with
  | nil =>
    intro m hm l h
    cases m with
    | start => injection h with h; subst h; exact .last (t := []) (rest := []) (.bare (by simp)) (.inl rfl)
    | bare f => injection h with h; subst h; exact .last (rest := []) (.bare hm) (.inl rfl)
    | quoted f => cases h
    | closed f =>
      injection h with h; subst h
      show CsvFields (34 :: csvEscape f ++ [34] ++ []) _
      rw [← csvQuoted_escape]
      exact .last .quoted (.inl rfl)
  | cons c r ih =>
    intro m hm l h
    cases m with
    | start =>
      rw [csvScan] at h
      by_cases h1 : c = nl
      · rw [if_pos h1] at h; injection h with h; subst h; subst h1
        exact .last (t := []) (.bare (by simp)) (.inr ⟨r, rfl⟩)
      rw [if_neg h1] at h
      by_cases h2 : c = 34
      · rw [if_pos h2] at h; subst h2
        exact ih (.quoted []) trivial l h
      rw [if_neg h2] at h
      by_cases h3 : c = 44
      · rw [if_pos h3] at h; subst h3
        obtain ⟨fs, e1, rfl⟩ := csvEmit_ok h
        exact .more (t := []) (.bare (by simp)) (ih .start trivial fs e1)
      · rw [if_neg h3] at h
        exact ih (.bare [c]) (by intro d hd; rw [List.mem_singleton.1 hd]; exact ⟨h2, h3, h1⟩) l h
    | bare f =>
      rw [csvScan] at h
      by_cases h1 : c = nl
      · rw [if_pos h1] at h; injection h with h; subst h; subst h1
        exact .last (.bare hm) (.inr ⟨r, rfl⟩)
      rw [if_neg h1] at h
      by_cases h2 : c = 34
      · rw [if_pos h2] at h; cases h
      rw [if_neg h2] at h
      by_cases h3 : c = 44
      · rw [if_pos h3] at h; subst h3
        obtain ⟨fs, e1, rfl⟩ := csvEmit_ok h
        exact .more (.bare hm) (ih .start trivial fs e1)
      · rw [if_neg h3] at h
        have := ih (.bare (f ++ [c])) (by
          intro d hd
          rcases List.mem_append.1 hd with hd | hd
          · exact hm d hd
          · rw [List.mem_singleton.1 hd]; exact ⟨h2, h3, h1⟩) l h
        simpa [CsvMode.text] using this
    | quoted f =>
      rw [csvScan] at h
      by_cases h2 : c = 34
      · rw [if_pos h2] at h; subst h2
        have := ih (.closed f) trivial l h
        simpa [CsvMode.text] using this
      · rw [if_neg h2] at h
        have := ih (.quoted (f ++ [c])) trivial l h
        simpa [CsvMode.text, csvEscape_snoc, h2] using this
    | closed f =>
      rw [csvScan] at h
      by_cases h2 : c = 34
      · rw [if_pos h2] at h; subst h2
        have := ih (.quoted (f ++ [34])) trivial l h
        simpa [CsvMode.text, csvEscape_snoc] using this
      rw [if_neg h2] at h
      by_cases h3 : c = 44
      · rw [if_pos h3] at h; subst h3
        obtain ⟨fs, e1, rfl⟩ := csvEmit_ok h
        show CsvFields (34 :: csvEscape f ++ [34] ++ _) _
        rw [← csvQuoted_escape]
        exact .more .quoted (ih .start trivial fs e1)
      rw [if_neg h3] at h
      by_cases h1 : c = nl
      · rw [if_pos h1] at h; injection h with h; subst h; subst h1
        show CsvFields (34 :: csvEscape f ++ [34] ++ _) _
        rw [← csvQuoted_escape]
        exact .last .quoted (.inr ⟨r, rfl⟩)
      · rw [if_neg h1] at h; cases h

theorem csvScan_bare (f : Bytes) (h : ∀ c ∈ f, c ≠ 34 ∧ c ≠ 44 ∧ c ≠ 10) : ∀ acc rest, csvScan (.bare acc) (f ++ rest) = csvScan (.bare (acc ++ f)) rest := by
  induction f with
  | nil => intro acc rest; simp
  | cons c r ih =>
    intro acc rest
    obtain ⟨h1, h2, h3⟩ := h c (by simp)
    rw [List.cons_append, csvScan, if_neg (show ¬ c = nl from h3), if_neg h1, if_neg h2, ih (fun d hd => h d (by simp [hd]))]
    simp

theorem csvScan_quoted (f : Bytes) : ∀ acc rest, csvScan (.quoted acc) (csvEscape f ++ rest) = csvScan (.quoted (acc ++ f)) rest := by
  induction f with
  | nil => intro acc rest; simp [csvEscape]
  | cons c r ih =>
    intro acc rest
    by_cases h : c = 34
    · subst h
      rw [csvEscape, if_pos rfl, List.cons_append, List.cons_append, csvScan, if_pos rfl, csvScan, if_pos rfl, ih]
      simp
    · rw [csvEscape, if_neg h, List.cons_append, csvScan, if_neg h, ih]
      simp

/-- A field, then the end or a comma. -/
theorem csvScan_field {t f : Bytes} (h : CsvField t f) (rest : Bytes) :
    (rest = [] ∨ (∃ r, rest = 10 :: r)) → csvScan .start (t ++ rest) = .ok [f] := by
  intro hr
  cases h with
  | bare hf =>
    cases t with
    | nil => rcases hr with rfl | ⟨r, rfl⟩ <;> rfl
    | cons c t =>
      obtain ⟨h1, h2, h3⟩ := hf c (by simp)
      rw [List.cons_append, csvScan, if_neg (show ¬ c = nl from h3), if_neg h1, if_neg h2, csvScan_bare t (fun d hd => hf d (by simp [hd]))]
      rcases hr with rfl | ⟨r, rfl⟩ <;> rfl
  | quoted =>
    rw [csvQuoted_escape, List.cons_append, List.cons_append, csvScan, if_neg (by decide), if_pos rfl, List.append_assoc, csvScan_quoted]
    rcases hr with rfl | ⟨r, rfl⟩ <;> rfl

theorem csvScan_comma {t f : Bytes} (h : CsvField t f) (rest : Bytes) : csvScan .start (t ++ 44 :: rest) = csvEmit f (csvScan .start rest) := by
  cases h with
  | bare hf =>
    cases t with
    | nil => rfl
    | cons c t =>
      obtain ⟨h1, h2, h3⟩ := hf c (by simp)
      rw [List.cons_append, csvScan, if_neg (show ¬ c = nl from h3), if_neg h1, if_neg h2, csvScan_bare t (fun d hd => hf d (by simp [hd]))]
      rfl
  | quoted =>
    rw [csvQuoted_escape, List.cons_append, List.cons_append, csvScan, if_neg (by decide), if_pos rfl, List.append_assoc, csvScan_quoted]
    rfl

theorem csvScan_complete {s : Bytes} {l : List Bytes} (h : CsvFields s l) : csvScan .start s = .ok l := by
  induction h with
  | last h1 h2 => exact csvScan_field h1 _ h2
  | more h1 _ ih => rw [csvScan_comma h1, ih]; rfl

theorem dropNl (s : Bytes) : ∃ n, s = List.replicate n 10 ++ s.dropWhile (· = nl) ∧ (s.dropWhile (· = nl)).head? ≠ some 10 := by
  induction s with
  | nil => exact ⟨0, rfl, by simp⟩
  | cons c r ih =>
    by_cases h : c = nl
    · obtain ⟨n, h1, h2⟩ := ih
      subst h
      refine ⟨n + 1, ?_, by simpa [List.dropWhile_cons] using h2⟩
      rw [List.dropWhile_cons_of_pos (by simp), List.replicate_succ, List.cons_append, ← h1]; rfl
    · refine ⟨0, by rw [List.dropWhile_cons_of_neg (by simpa using h)]; rfl, ?_⟩
      rw [List.dropWhile_cons_of_neg (by simpa using h)]
      simpa [nl] using h

theorem dropNl_eq (n : Nat) (rest : Bytes) (h : rest.head? ≠ some 10) : (List.replicate n 10 ++ rest).dropWhile (· = nl) = rest := by
  induction n with
  | zero =>
    cases rest with
    | nil => rfl
    | cons c r =>
      have h' : c ≠ 10 := by simpa using h
      exact List.dropWhile_cons_of_neg (by simp [nl, h'])
  | succ n ih => rw [List.replicate_succ, List.cons_append, List.dropWhile_cons_of_pos (by simp [nl]), ih]

/-- A value is read exactly as its record. -/
theorem readAsCSV_iff (v : Bytes) (l : List Bytes) : readAsCSV v = .ok l ↔ CsvValue v l := by
  by_cases hv : v = []
  · subst hv
    constructor
    · intro h; injection h with h; subst h; exact .empty
    · intro h
      cases h with
      | empty => rfl
      | record h1 h2 _ _ =>
        have : ([] : Bytes) = _ := h1
        rcases List.append_eq_nil_iff.1 this.symm with ⟨_, h⟩
        exact absurd h h2
  · rw [readAsCSV, if_neg hv, csvNormal_lines]
    obtain ⟨n, h1, h2⟩ := dropNl (csvLines v)
    constructor
    · intro h
      cases hd : (csvLines v).dropWhile (· = nl) with
      | nil => rw [hd] at h; cases h
      | cons c r =>
        rw [hd] at h h1 h2
        exact .record h1 (by simp) h2 (csvScan_sound _ .start trivial l h)
    · intro h
      cases h with
      | empty => exact absurd rfl hv
      | record e1 e2 e3 e4 =>
        rw [e1, dropNl_eq _ _ e3]
        have := csvScan_complete e4
        rename_i rest
        cases rest with
        | nil => exact absurd rfl e2
        | cons c r => exact this

end Texted
