import Verif.Spec.Refusal
import Verif.Lemmas.Csv
import Verif.Lemmas.CommandLine
/- A command line is refused exactly for the reasons of Spec/Refusal, with the messages given there. -/
namespace Texted
open Spec
variable [Ext]

/-! ### Records -/

omit [Ext] in
theorem csvEmit_error {f : Bytes} {r : Except Bytes (List Bytes)} {e : Bytes} : csvEmit f r = .error e ↔ r = .error e := by
  cases r <;> simp [csvEmit]

omit [Ext] in
theorem csvScan_bad (s : Bytes) : ∀ m : CsvMode, m.Good → (∀ f, m = .bare f → f ≠ []) → ∀ e, csvScan m s = .error e → CsvBad (m.text ++ s) e := by
  induction s with
  | nil =>
    intro m hm hb e h
    cases m with
    | start => cases h
    | bare f => cases h
    | quoted f =>
      injection h with h; subst h
      exact .unclosed (f := f) (by rw [csvQuoted_escape]; simp [CsvMode.text])
    | closed f => cases h
  | cons c r ih =>
    intro m hm hb e h
    cases m with
    | start =>
      rw [csvScan] at h
      by_cases h1 : c = nl
      · rw [if_pos h1] at h; cases h
      rw [if_neg h1] at h
      by_cases h2 : c = 34
      · rw [if_pos h2] at h; subst h2
        exact ih (.quoted []) trivial (by simp) e h
      rw [if_neg h2] at h
      by_cases h3 : c = 44
      · rw [if_pos h3, csvEmit_error] at h; subst h3
        exact .more (t := []) (.bare (by simp)) (ih .start trivial (by simp) e h)
      · rw [if_neg h3] at h
        exact ih (.bare [c]) (by intro d hd; rw [List.mem_singleton.1 hd]; exact ⟨h2, h3, h1⟩) (by rintro f hf; injection hf with hf; subst hf; simp) e h
    | bare f =>
      rw [csvScan] at h
      by_cases h1 : c = nl
      · rw [if_pos h1] at h; cases h
      rw [if_neg h1] at h
      by_cases h2 : c = 34
      · rw [if_pos h2] at h; injection h with h; subst h; subst h2
        exact .bare (hb f rfl) hm
      rw [if_neg h2] at h
      by_cases h3 : c = 44
      · rw [if_pos h3, csvEmit_error] at h; subst h3
        exact .more (.bare hm) (ih .start trivial (by simp) e h)
      · rw [if_neg h3] at h
        have := ih (.bare (f ++ [c])) (by
          intro d hd
          rcases List.mem_append.1 hd with hd | hd
          · exact hm d hd
          · rw [List.mem_singleton.1 hd]; exact ⟨h2, h3, h1⟩) (by rintro f' hf; injection hf with hf; subst hf; simp) e h
        simpa [CsvMode.text] using this
    | quoted f =>
      rw [csvScan] at h
      by_cases h2 : c = 34
      · rw [if_pos h2] at h; subst h2
        have := ih (.closed f) trivial (by simp) e h
        simpa [CsvMode.text] using this
      · rw [if_neg h2] at h
        have := ih (.quoted (f ++ [c])) trivial (by simp) e h
        simpa [CsvMode.text, csvEscape_snoc, h2] using this
    | closed f =>
      rw [csvScan] at h
      by_cases h2 : c = 34
      · rw [if_pos h2] at h; subst h2
        have := ih (.quoted (f ++ [34])) trivial (by simp) e h
        simpa [CsvMode.text, csvEscape_snoc] using this
      rw [if_neg h2] at h
      by_cases h3 : c = 44
      · rw [if_pos h3, csvEmit_error] at h; subst h3
        show CsvBad (34 :: csvEscape f ++ [34] ++ _) _
        rw [← csvQuoted_escape]
        exact .more .quoted (ih .start trivial (by simp) e h)
      rw [if_neg h3] at h
      by_cases h1 : c = nl
      · rw [if_pos h1] at h; cases h
      · rw [if_neg h1] at h; injection h with h; subst h
        show CsvBad (34 :: csvEscape f ++ [34] ++ _) _
        rw [← csvQuoted_escape]
        exact .behind h2 h3 h1

omit [Ext] in
theorem csvScan_bad_complete {s e : Bytes} (h : CsvBad s e) : csvScan .start s = .error e := by
  induction h with
  | bare hne hf =>
    rename_i f rest
    cases f with
    | nil => exact absurd rfl hne
    | cons c f =>
      obtain ⟨h1, h2, h3⟩ := hf c (by simp)
      rw [List.cons_append, csvScan, if_neg (show ¬ c = nl from h3), if_neg h1, if_neg h2, csvScan_bare f (fun d hd => hf d (by simp [hd]))]
      rfl
  | behind h1 h2 h3 =>
    rw [csvQuoted_escape, List.cons_append, List.cons_append, csvScan, if_neg (by decide), if_pos rfl, List.append_assoc, csvScan_quoted,
      List.singleton_append, csvScan, if_pos rfl, csvScan, if_neg h1, if_neg h2, if_neg (show ¬ _ = nl from h3)]
    rfl
  | unclosed ht =>
    rename_i t f
    rw [csvQuoted_escape] at ht
    have : t = 34 :: csvEscape f := List.append_cancel_right (bs := [34]) ht
    rw [this, csvScan, if_neg (by decide), if_pos rfl]
    have := csvScan_quoted f [] []
    rw [List.append_nil] at this
    rw [this]
    rfl
  | more h1 _ ih => rw [csvScan_comma h1, ih]; rfl

omit [Ext] in
theorem csvBad_ne {s e : Bytes} (h : CsvBad s e) : s ≠ [] := by
  rintro rfl
  have := csvScan_bad_complete h
  cases this

omit [Ext] in
theorem readAsCSV_error_iff (v e : Bytes) : readAsCSV v = .error e ↔ CsvWrong v e := by
  by_cases hv : v = []
  · subst hv
    constructor
    · intro h; cases h
    · intro h
      cases h with
      | noLine h1 => exact absurd rfl h1
      | line h1 _ h3 =>
        have : ([] : Bytes) = _ := h1
        rcases List.append_eq_nil_iff.1 this.symm with ⟨_, h⟩
        exact absurd h (csvBad_ne h3)
  · rw [readAsCSV, if_neg hv, csvNormal_lines]
    obtain ⟨n, h1, h2⟩ := dropNl (csvLines v)
    constructor
    · intro h
      cases hd : (csvLines v).dropWhile (· = nl) with
      | nil =>
        rw [hd] at h h1; injection h with h; subst h
        exact .noLine (n := n) hv (by rw [h1]; simp)
      | cons c r =>
        rw [hd] at h h1 h2
        exact .line h1 h2 (csvScan_bad _ .start trivial (by simp) e h)
    · intro h
      cases h with
      | noLine _ e1 =>
        have := dropNl_eq ‹Nat› [] (by simp)
        rw [List.append_nil] at this
        rw [e1, this]
      | line e1 e3 e4 =>
        rw [e1, dropNl_eq _ _ e3]
        have hne := csvBad_ne e4
        have := csvScan_bad_complete e4
        rename_i rest
        cases rest with
        | nil => exact absurd rfl hne
        | cons c r => exact this

/-! ### Values -/

omit [Ext] in
theorem optionShown_eq (f : FlagDef) : optionShown f = f.shown := by
  rw [optionShown, FlagDef.shown]
  cases f.short <;> rfl

theorem letterShown_eq (c : UInt8) : letterShown c = quoteByteRune c := by
  rw [letterShown]
  split
  · rename_i h
    have key : ∀ n : Fin 256, 32 ≤ n.val → n.val < 127 → (Char.ofNat n.val).toNat < 128 ∧
        (32 ≤ (Char.ofNat n.val).toNat && (Char.ofNat n.val).toNat < 127) = true ∧ encodeRune (Char.ofNat n.val) = [UInt8.ofNat n.val] := by decide +kernel
    obtain ⟨h1, h2, h3⟩ := key ⟨c.toNat, c.toNat_lt⟩ (UInt8.le_iff_toNat_le.1 h.1) (UInt8.lt_iff_toNat_lt.1 h.2.1)
    simp only [UInt8.ofNat_toNat] at h1 h2 h3
    rw [quoteByteRune, if_neg (by rintro (e | e); exact h.2.2.1 e; exact h.2.2.2 e), isPrintRune, if_pos h1, if_pos h2, h3]
    rfl
  · rfl

theorem checkValue_error_iff (f : FlagDef) (v m : Bytes) : (∃ e, checkValue f v = .error e ∧ e.text = m) ↔ BadValue f v m := by
  unfold checkValue
  cases hk : f.kind with
  | str =>
    constructor
    · rintro ⟨e, h, _⟩; cases h
    · intro h; cases h with
      | switch h => rw [hk] at h; cases h
      | list h => rw [hk] at h; cases h
  | bool =>
    have ht := parseBool_true v
    have hf := parseBool_false v
    cases hb : parseBool v with
    | some b =>
      constructor
      · rintro ⟨e, h, _⟩; cases h
      · intro h; cases h with
        | switch _ h1 h2 =>
          cases b with
          | true => exact absurd (ht.1 hb) h1
          | false => exact absurd (hf.1 hb) h2
        | list h => rw [hk] at h; cases h
    | none =>
      constructor
      · rintro ⟨e, h, rfl⟩
        injection h with h; subst h
        have := BadValue.switch (f := f) (v := v) hk (fun h => by rw [ht.2 h] at hb; cases hb) (fun h => by rw [hf.2 h] at hb; cases hb)
        simpa [FlagError.text, invalidArgument, optionShown_eq] using this
      · intro h
        refine ⟨_, rfl, ?_⟩
        cases h with
        | switch _ h1 h2 => simp [FlagError.text, invalidArgument, optionShown_eq]
        | list h => rw [hk] at h; cases h
  | slice =>
    have hr := readAsCSV_error_iff v
    cases hb : readAsCSV v with
    | ok l =>
      constructor
      · rintro ⟨e, h, _⟩; cases h
      · intro h; cases h with
        | switch h => rw [hk] at h; cases h
        | list _ h => rw [(hr _).2 h] at hb; cases hb
    | error e =>
      constructor
      · rintro ⟨e', h, rfl⟩
        injection h with h; subst h
        have := BadValue.list (f := f) (v := v) hk ((hr e).1 hb)
        simpa [FlagError.text, invalidArgument, optionShown_eq] using this
      · intro h
        cases h with
        | switch h => rw [hk] at h; cases h
        | list _ h =>
          refine ⟨_, rfl, ?_⟩
          rw [(hr _).2 h] at hb; injection hb with hb; subst hb
          simp [FlagError.text, invalidArgument, optionShown_eq]

theorem checked_error_iff (f : FlagDef) (v m : Bytes) :
    (∃ e, ((checkValue f v).map fun s => (([s], none) : WordRead)) = .error e ∧ e.text = m) ↔ BadValue f v m := by
  rw [← checkValue_error_iff]
  cases checkValue f v <;> simp [Except.map]

omit [Ext] in
theorem badValue_not [Ext] {f : FlagDef} {v m : Bytes} (h : BadValue f v m) : ¬ Accepts f v := by
  intro ha
  obtain ⟨e, h1, _⟩ := (checkValue_error_iff f v m).2 h
  rw [(checkValue_iff f v _).2 ⟨rfl, ha⟩] at h1
  cases h1

/-! ### Words -/

omit [Ext] in
theorem findShort_none (defs : List FlagDef) (c : UInt8) : findShort defs c = none ↔ ∀ f ∈ defs, f.short ≠ some c := by
  rw [findShort, List.find?_eq_none]; simp

omit [Ext] in
theorem findLong_none (defs : List FlagDef) (n : Bytes) : findLong defs n = none ↔ ∀ f ∈ defs, f.name ≠ n := by
  rw [findLong, List.find?_eq_none]; simp

theorem readShort_error_iff {defs : List FlagDef} (ht : GoodTable defs) (s : Bytes) : ∀ m,
    (∃ e, readShort defs s = .error e ∧ e.text = m) ↔ BadLetters defs s m := by
  induction s with
  | nil =>
    intro m
    constructor
    · rintro ⟨e, h, _⟩; cases h
    · intro h; cases h
  | cons c r ih =>
    intro m
    rw [readShort]
    by_cases htest : b! "test." <+: c :: r
    · rw [if_pos htest]
      have hc : c = 116 := by
        obtain ⟨t, ht⟩ := htest
        injection ht with h; exact h.symm
      constructor
      · rintro ⟨e, h, _⟩; cases h
      · intro h
        cases h with
        | unknown _ h2 => exact absurd htest h2
        | equals h1 h2 => rw [hc] at h2; exact absurd h2 (ht.noT _ h1).1
        | joined h1 h2 => rw [hc] at h2; exact absurd h2 (ht.noT _ h1).1
        | more h1 h2 => rw [hc] at h2; exact absurd h2 (ht.noT _ h1).1
    · rw [if_neg htest]
      cases hf : findShort defs c with
      | none =>
        have hn := (findShort_none defs c).1 hf
        constructor
        · rintro ⟨e, h, rfl⟩
          injection h with h; subst h
          have := BadLetters.unknown hn htest
          rw [letterShown_eq] at this
          exact this
        · intro h
          refine ⟨_, rfl, ?_⟩
          cases h with
          | unknown => rw [letterShown_eq]; rfl
          | equals h1 h2 => exact absurd h2 (hn _ h1)
          | joined h1 h2 => exact absurd h2 (hn _ h1)
          | more h1 h2 => exact absurd h2 (hn _ h1)
      | some f =>
        obtain ⟨f1, f2⟩ := (findShort_iff ht c f).1 hf
        have uniq : ∀ g ∈ defs, g.short = some c → g = f := by
          intro g hg hs
          have := (findShort_iff ht c g).2 ⟨hg, hs⟩
          rw [hf] at this; injection this with this; exact this.symm
        simp only
        by_cases ha : Assigns r
        · rw [if_pos ((assigns_iff r).2 ha), checked_error_iff]
          obtain ⟨v, hv, rfl⟩ := ha
          constructor
          · intro h; exact .equals f1 f2 hv h
          · intro h
            cases h with
            | unknown h1 => exact absurd f2 (h1 f f1)
            | equals h1 h2 h3 h4 => rw [uniq _ h1 h2] at h4; exact h4
            | joined h1 h2 h3 h4 => exact absurd ⟨v, hv, rfl⟩ h4
            | more h1 h2 h3 h4 => exact absurd ⟨v, hv, rfl⟩ h4
        · rw [if_neg (fun h => ha ((assigns_iff r).1 h))]
          by_cases hb : f.kind = .bool
          · rw [if_pos hb]
            have : (∃ e, (match readShort defs r with
              | .error e => Except.error e
              | .ok (l, need) => (.ok ((f, b! "true") :: l, need) : Except FlagError WordRead)) = .error e ∧ e.text = m) ↔
              ∃ e, readShort defs r = .error e ∧ e.text = m := by
              cases readShort defs r <;> simp
            refine Iff.trans this ?_
            rw [ih]
            constructor
            · intro h; exact .more f1 f2 hb ha h
            · intro h
              cases h with
              | unknown h1 => exact absurd f2 (h1 f f1)
              | equals h1 h2 h3 h4 => exact absurd ⟨_, h3, rfl⟩ ha
              | joined h1 h2 h3 h4 => rw [uniq _ h1 h2] at h3; exact absurd hb h3
              | more h1 h2 h3 h4 h5 => exact h5
          · rw [if_neg hb]
            by_cases hr : r = []
            · rw [if_neg (by simp [hr])]
              constructor
              · rintro ⟨e, h, _⟩; cases h
              · intro h
                subst hr
                cases h with
                | unknown h1 => exact absurd f2 (h1 f f1)
                | joined h1 h2 h3 h4 h5 => exact absurd rfl h5
                | more h1 h2 h3 h4 h5 => cases h5
            · rw [if_pos hr, checked_error_iff]
              constructor
              · intro h; exact .joined f1 f2 hb ha hr h
              · intro h
                cases h with
                | unknown h1 => exact absurd f2 (h1 f f1)
                | equals h1 h2 h3 h4 => exact absurd ⟨_, h3, rfl⟩ ha
                | joined h1 h2 h3 h4 h5 h6 => rw [uniq _ h1 h2] at h6; exact h6
                | more h1 h2 h3 h4 h5 => rw [uniq _ h1 h2] at h3; exact absurd h3 hb

omit [Ext] in
theorem cutEquals_fst (s : Bytes) : 61 ∉ (cutEquals s).1 := by
  induction s with
  | nil => simp [cutEquals]
  | cons c r ih =>
    rw [cutEquals]
    split
    · simp
    · rename_i h
      simp only [List.mem_cons, not_or]
      exact ⟨fun h' => h h'.symm, ih⟩

/-- The message of a word that begins with `--` (and is longer). -/
theorem readLong_error_iff {defs : List FlagDef} (ht : GoodTable defs) {name : Bytes} (hne : name ≠ []) (m : Bytes) :
    (∃ e, readLong defs name = .error e ∧ e.text = m) ↔
      ((name.head? = some 45 ∨ name.head? = some 61) ∧ m = b! "bad flag syntax: --" ++ name) ∨
      (∃ n x, name = n ++ x ∧ (x = [] ∨ ∃ v, x = 61 :: v) ∧ n ≠ [] ∧ n.head? ≠ some 45 ∧ 61 ∉ n ∧ (∀ f ∈ defs, f.name ≠ n) ∧ m = b! "unknown flag: --" ++ n) ∨
      (∃ f v, f ∈ defs ∧ name = f.name ++ 61 :: v ∧ BadValue f v m) := by
  have starts : ∀ n x : Bytes, n ≠ [] → n.head? ≠ some 45 → 61 ∉ n → ¬ ((n ++ x).head? = some 45 ∨ (n ++ x).head? = some 61) := by
    intro n x h1 h2 h3
    cases n with
    | nil => exact absurd rfl h1
    | cons c n =>
      rintro (h | h)
      · exact h2 h
      · simp only [List.cons_append, List.head?_cons, Option.some.injEq] at h
        exact h3 (by simp [h])
  unfold readLong
  by_cases hs : name.head? = some 45 ∨ name.head? = some 61
  · rw [if_pos hs]
    constructor
    · rintro ⟨e, h, rfl⟩
      injection h with h; subst h
      exact .inl ⟨hs, rfl⟩
    · rintro (⟨_, rfl⟩ | ⟨n, x, rfl, _, h1, h2, h3, _⟩ | ⟨f, v, hf, rfl, _⟩)
      · exact ⟨_, rfl, rfl⟩
      · exact absurd hs (starts n x h1 h2 h3)
      · obtain ⟨h1, h2, h3⟩ := ht.name f hf
        exact absurd hs (starts _ _ h1 h2 h3)
  rw [if_neg hs]
  have hback := cutEquals_back name
  have hno := cutEquals_fst name
  have hcne : (cutEquals name).1 ≠ [] := by
    intro h
    rw [h, List.nil_append] at hback
    cases h2 : (cutEquals name).2 with
    | none => rw [h2] at hback; exact hne hback
    | some v => rw [h2] at hback; exact hs (.inr (by rw [hback]; rfl))
  have hch : (cutEquals name).1.head? ≠ some 45 := by
    intro h
    obtain ⟨c, t, hc⟩ := List.exists_cons_of_ne_nil hcne
    rw [hc] at h hback
    simp only [List.head?_cons, Option.some.injEq] at h
    exact hs (.inl (by rw [hback, h]; rfl))
  -- the cut is the only way to divide the name
  have cut : ∀ n x : Bytes, 61 ∉ n → (x = [] ∨ ∃ v, x = 61 :: v) → name = n ++ x → (cutEquals name).1 = n ∧
      (match (cutEquals name).2 with | none => x = [] | some v => x = 61 :: v) := by
    rintro n x hn (rfl | ⟨v, rfl⟩) he
    · rw [he, List.append_nil, cutEquals_none hn]; exact ⟨rfl, rfl⟩
    · rw [he, cutEquals_some hn]; exact ⟨rfl, rfl⟩
  cases hf : findLong defs (cutEquals name).1 with
  | none =>
    have hn := (findLong_none defs _).1 hf
    constructor
    · rintro ⟨e, h, rfl⟩
      injection h with h; subst h
      refine .inr (.inl ⟨_, _, hback, ?_, hcne, hch, hno, hn, rfl⟩)
      cases (cutEquals name).2 with
      | none => exact .inl rfl
      | some v => exact .inr ⟨v, rfl⟩
    · rintro (⟨h, _⟩ | ⟨n, x, he, hx, h1, h2, h3, _, rfl⟩ | ⟨f, v, hfm, he, _⟩)
      · exact absurd h hs
      · refine ⟨_, rfl, ?_⟩
        rw [(cut n x h3 hx he).1]; rfl
      · obtain ⟨h1, h2, h3⟩ := ht.name f hfm
        exact absurd (cut f.name _ h3 (.inr ⟨v, rfl⟩) he).1.symm (hn f hfm)
  | some f =>
    obtain ⟨f1, f2⟩ := (findLong_iff ht _ f).1 hf
    simp only
    cases hv : (cutEquals name).2 with
    | some v =>
      simp only
      rw [checked_error_iff]
      rw [hv] at hback
      simp only at hback
      constructor
      · intro h
        exact .inr (.inr ⟨f, v, f1, by rw [f2]; exact hback, h⟩)
      · rintro (⟨h, _⟩ | ⟨n, x, he, hx, h1, h2, h3, h4, rfl⟩ | ⟨g, w, hg, he, hb⟩)
        · exact absurd h hs
        · exact absurd (f2.trans (cut n x h3 hx he).1) (h4 f f1)
        · obtain ⟨h1, h2, h3⟩ := ht.name g hg
          have := cut g.name _ h3 (.inr ⟨w, rfl⟩) he
          rw [hv] at this
          obtain ⟨e1, e2⟩ := this
          injection e2 with _ e2; subst e2
          rw [ht.distinct f f1 g hg (f2.trans e1)]; exact hb
    | none =>
      simp only
      have nope : ¬ ∃ e, (if f.kind = .bool then (.ok ([(f, b! "true")], none) : Except FlagError WordRead) else .ok ([], some f)) = .error e ∧ e.text = m := by
        rintro ⟨e, h, _⟩
        split at h <;> cases h
      refine ⟨fun h => absurd h nope, ?_⟩
      rintro (⟨h, _⟩ | ⟨n, x, he, hx, h1, h2, h3, h4, rfl⟩ | ⟨g, w, hg, he, hb⟩)
      · exact absurd h hs
      · exact absurd (f2.trans (cut n x h3 hx he).1) (h4 f f1)
      · obtain ⟨h1, h2, h3⟩ := ht.name g hg
        have := cut g.name _ h3 (.inr ⟨w, rfl⟩) he
        rw [hv] at this
        exact absurd this.2 (by simp)

/-- The message of a word of options. -/
theorem readWord_error_iff {defs : List FlagDef} (ht : GoodTable defs) {w : Bytes} (hw : ¬ Operand w) (hd : w ≠ b! "--") (m : Bytes) :
    (∃ e, readWord defs w = .error e ∧ e.text = m) ↔ BadWord defs w m := by
  unfold readWord
  by_cases hp : b! "--" <+: w
  · obtain ⟨x, rfl⟩ := hp
    have hx : x ≠ [] := by rintro rfl; exact hd (List.append_nil _)
    rw [if_pos ⟨x, rfl⟩, show (b! "--" ++ x).drop 2 = x from rfl, readLong_error_iff ht hx]
    constructor
    · rintro (⟨h, rfl⟩ | ⟨n, y, rfl, hy, h1, h2, h3, h4, rfl⟩ | ⟨f, v, hf, rfl, hb⟩)
      · exact .dashes h
      · rcases hy with rfl | ⟨v, rfl⟩
        · rw [List.append_nil]; exact .unknown h1 h2 h3 h4
        · have := BadWord.unknownAssigned (v := v) h1 h2 h3 h4
          simpa using this
      · have := BadWord.assigned (v := v) hf hb
        simpa using this
    · intro h
      generalize hs : b! "--" ++ x = s at h
      have inj : ∀ y, b! "--" ++ x = b! "--" ++ y → x = y := fun y h => List.append_cancel_left h
      cases h with
      | dashes h => have := inj _ hs; subst this; exact .inl ⟨h, rfl⟩
      | unknown h1 h2 h3 h4 => have := inj _ hs; subst this; exact .inr (.inl ⟨x, [], (List.append_nil x).symm, .inl rfl, h1, h2, h3, h4, rfl⟩)
      | unknownAssigned h1 h2 h3 h4 =>
        rename_i n v
        have := inj (n ++ (b! "=" ++ v)) (by rw [hs]; simp)
        exact .inr (.inl ⟨n, _, this, .inr ⟨v, rfl⟩, h1, h2, h3, h4, rfl⟩)
      | assigned hf hb =>
        rename_i f v
        have := inj (f.name ++ (b! "=" ++ v)) (by rw [hs]; simp)
        exact .inr (.inr ⟨f, v, hf, this, hb⟩)
      | @letters r _ h1 _ =>
        injection hs with _ hs
        exact absurd (by rw [← show [45] ++ x = r from hs]; rfl) h1
  · rw [if_neg hp]
    have hh : w.head? = some 45 := Decidable.byContradiction fun hc => hw (.inl hc)
    obtain ⟨r, rfl⟩ : ∃ r, w = b! "-" ++ r := by
      cases w with
      | nil => cases hh
      | cons c r => exact ⟨r, by simp at hh; rw [hh]; rfl⟩
    have h2 : r.head? ≠ some 45 := by
      intro hc
      cases r with
      | nil => cases hc
      | cons c r => simp at hc; rw [hc] at hp; exact hp ⟨r, rfl⟩
    rw [show (b! "-" ++ r).drop 1 = r from rfl, readShort_error_iff ht]
    constructor
    · intro h; exact .letters h2 h
    · intro h
      generalize hs : b! "-" ++ r = s at h
      cases h with
      | letters _ h => injection hs with _ hs; subst hs; exact h
      | dashes _ => exact absurd ⟨_, hs.symm⟩ hp
      | unknown => exact absurd ⟨_, hs.symm⟩ hp
      | unknownAssigned =>
        rename_i n v _ _ _ _
        exact absurd ⟨n ++ (b! "=" ++ v), by rw [hs]; simp⟩ hp
      | assigned =>
        rename_i f v _ _
        exact absurd ⟨f.name ++ (b! "=" ++ v), by rw [hs]; simp⟩ hp

/-- A word that is wrong is a word of options. -/
theorem badWord_option {defs : List FlagDef} {w m : Bytes} (h : BadWord defs w m) : ¬ Operand w ∧ w ≠ b! "--" := by
  have long : ∀ x : Bytes, x ≠ [] → ¬ Operand (b! "--" ++ x) ∧ b! "--" ++ x ≠ b! "--" := by
    intro x hx
    refine ⟨?_, fun h => hx (List.append_cancel_left (h.trans (List.append_nil _).symm))⟩
    rintro (h | h)
    · exact h rfl
    · injection h with _ h; cases h
  cases h with
  | dashes h => exact long _ (by rintro rfl; rcases h with h | h <;> cases h)
  | unknown h => exact long _ h
  | unknownAssigned h => rw [List.append_assoc, List.append_assoc]; exact long _ (by simp)
  | assigned h => rw [List.append_assoc, List.append_assoc]; exact long _ (by simp)
  | letters h1 h2 =>
    rename_i r
    have hr : r ≠ [] := by rintro rfl; cases h2
    constructor
    · rintro (h | h)
      · exact h rfl
      · injection h with _ h; exact hr h
    · intro h
      injection h with _ h; rw [show r = [45] from h] at h1; exact h1 rfl

/-! ### Whole command lines -/

/-- Complete words in front do not matter for the error. -/
theorem whole_error {defs : List FlagDef} (ht : GoodTable defs) {pre : List Bytes} (h : Whole defs pre) {x : List Bytes} {e : FlagError}
    (hx : parseWords defs x = .error e) : parseWords defs (pre ++ x) = .error e := by
  induction h with
  | nil => exact hx
  | operand hw _ ih => rw [List.cons_append, parseWords_operand hw, ih]
  | option ho _ ih => rw [List.append_assoc, parseWords_option ht ho, ih]; rfl

/-- The words before the first wrong one are complete. -/
theorem refusal_front {defs : List FlagDef} {pre ws : List Bytes} {m : Bytes} (hp : Whole defs pre) (h : Misread defs ws m) : Misread defs (pre ++ ws) m := by
  have app : ∀ {pre' : List Bytes}, Whole defs pre' → Whole defs (pre ++ pre') := by
    intro pre' hp'
    clear h
    induction hp with
    | nil => exact hp'
    | operand hw _ ih => exact .operand hw ih
    | option ho _ ih => rw [List.append_assoc]; exact .option ho ih
  cases h with
  | word h1 h2 => rw [← List.append_assoc]; exact .word (app h1) h2
  | missing h1 h2 h3 => rw [← List.append_assoc]; exact .missing (app h1) h2 h3
  | missingLetter h1 h2 h3 h4 => rw [← List.append_assoc]; exact .missingLetter (app h1) h2 h3 h4
  | value h1 h2 h3 h4 => rw [← List.append_assoc]; exact .value (app h1) h2 h3 h4
  | valueLetter h1 h2 h3 h4 => rw [← List.append_assoc]; exact .valueLetter (app h1) h2 h3 h4

/-- A word of options whose last option needs the next word. -/
theorem readWord_need {defs : List FlagDef} (ht : GoodTable defs) {w : Bytes} (hw : ¬ Operand w) {l : List (FlagDef × Bytes)} {f : FlagDef}
    (h : readWord defs w = .ok (l, some f)) :
    (f ∈ defs ∧ TakesValue f ∧ w = b! "--" ++ f.name) ∨ ∃ r c, w = b! "-" ++ r ∧ r.head? ≠ some 45 ∧ Cluster defs r l (some f) ∧ f.short = some c := by
  unfold readWord at h
  by_cases hp : b! "--" <+: w
  · rw [if_pos hp, readLong_iff ht] at h
    obtain ⟨x, rfl⟩ := hp
    obtain ⟨g, hg, h⟩ := h
    rw [show (b! "--" ++ x).drop 2 = x from rfl] at h
    rcases h with ⟨_, _, _, h⟩ | ⟨v, _, _, _, h⟩ | ⟨rfl, h2, rfl, h⟩
    · cases h
    · cases h
    · injection h with h; subst h
      exact .inl ⟨hg, h2, rfl⟩
  · rw [if_neg hp, readShort_iff ht] at h
    have hh : w.head? = some 45 := Decidable.byContradiction fun hc => hw (.inl hc)
    obtain ⟨r, rfl⟩ : ∃ r, w = b! "-" ++ r := by
      cases w with
      | nil => cases hh
      | cons c r => exact ⟨r, by simp at hh; rw [hh]; rfl⟩
    have h2 : r.head? ≠ some 45 := by
      intro hc
      cases r with
      | nil => cases hc
      | cons c r => simp at hc; rw [hc] at hp; exact hp ⟨r, rfl⟩
    rw [show (b! "-" ++ r).drop 1 = r from rfl] at h
    have : ∃ c, f.short = some c := by
      generalize hn : some f = need at h
      clear h2 hw hp hh
      induction h with
      | done => cases hn
      | switch _ _ _ _ _ ih => exact ih hn
      | equals => cases hn
      | joined => cases hn
      | next _ h2 => injection hn with hn; subst hn; exact ⟨_, h2⟩
      | ignored => cases hn
    obtain ⟨c, hc⟩ := this
    exact .inr ⟨r, c, rfl, h2, h, hc⟩

theorem parseWords_refused {defs : List FlagDef} (ht : GoodTable defs) : ∀ (n : Nat) (ws : List Bytes), ws.length ≤ n → ∀ e,
    parseWords defs ws = .error e → Misread defs ws e.text := by
  intro n
  induction n with
  | zero =>
    intro ws hn e h
    match ws with
    | [] => cases h
  | succ n ih =>
    intro ws hn e h
    match ws with
    | [] => cases h
    | w :: rest =>
      simp only [List.length_cons] at hn
      rw [parseWords.eq_def] at h
      simp only at h
      by_cases hop : w.head? ≠ some 45 ∨ w.length = 1
      · rw [if_pos hop] at h
        cases hr : parseWords defs rest with
        | ok p => rw [hr] at h; cases h
        | error e' =>
          rw [hr] at h
          injection h with h; subst h
          exact refusal_front (.operand ((operand_iff' w).1 hop) .nil) (ih rest (by omega) _ hr)
      rw [if_neg hop] at h
      have hop' : ¬ Operand w := fun h => hop ((operand_iff' w).2 h)
      by_cases hd : w = b! "--"
      · rw [if_pos hd] at h; cases h
      rw [if_neg hd] at h
      cases hr : readWord defs w with
      | error e' =>
        rw [hr] at h
        injection h with h; subst h
        exact .word (pre := []) .nil ((readWord_error_iff ht hop' hd _).1 ⟨_, hr, rfl⟩)
      | ok p =>
        obtain ⟨l0, need⟩ := p
        rw [hr] at h
        have hw := readWord_sound ht hop' hd hr
        cases need with
        | none =>
          have : parseWords defs rest = .error e := by
            simp only at h
            cases hp : parseWords defs rest with
            | ok p => rw [hp] at h; cases h
            | error e' => rw [hp] at h; injection h with h; rw [h]
          have h1 := Whole.option (hw.1 rfl) Whole.nil
          rw [List.append_nil] at h1
          exact refusal_front h1 (ih rest (by omega) _ this)
        | some f =>
          have hneed := readWord_need ht hop' hr
          match rest with
          | [] =>
            simp only at h
            injection h with h; subst h
            rcases hneed with ⟨h1, h2, rfl⟩ | ⟨r, c, rfl, h1, h2, h3⟩
            · have := Misread.missing (defs := defs) (pre := []) .nil h1 h2
              rw [missingValue, if_pos ⟨_, rfl⟩]
              exact this
            · have := Misread.missingLetter (defs := defs) (pre := []) .nil h1 h2 h3
              have hnp : ¬ b! "--" <+: b! "-" ++ r := by
                rintro ⟨x, hx⟩
                injection hx with _ hx
                exact h1 (by rw [← show [45] ++ x = r from hx]; rfl)
              rw [missingValue, if_neg hnp, h3]
              rw [letterShown_eq] at this
              exact this
          | v :: rest' =>
            simp only [List.length_cons] at hn
            simp only at h
            cases hc : checkValue f v with
            | error e' =>
              rw [hc] at h
              injection h with h; subst h
              have hb := (checkValue_error_iff f v _).1 ⟨_, hc, rfl⟩
              rcases hneed with ⟨h1, h2, rfl⟩ | ⟨r, c, rfl, h1, h2, h3⟩
              · exact .value (pre := []) .nil h1 h2 hb
              · exact .valueLetter (pre := []) .nil h1 h2 hb
            | ok s =>
              rw [hc] at h
              obtain ⟨rfl, hf⟩ := (checkValue_iff f v s).1 hc
              have : parseWords defs rest' = .error e := by
                simp only at h
                cases hp : parseWords defs rest' with
                | ok p => rw [hp] at h; cases h
                | error e' => rw [hp] at h; injection h with h; rw [h]
              have h1 := Whole.option (hw.2 f rfl v hf) Whole.nil
              rw [List.append_nil] at h1
              exact refusal_front h1 (ih rest' (by omega) _ this)

theorem parseWords_refuses {defs : List FlagDef} (ht : GoodTable defs) {ws : List Bytes} {m : Bytes} (h : Misread defs ws m) :
    ∃ e, parseWords defs ws = .error e ∧ e.text = m := by
  have last : ∀ {w : Bytes} {l : List (FlagDef × Bytes)} {f : FlagDef}, ¬ Operand w → w ≠ b! "--" → readWord defs w = .ok (l, some f) →
      parseWords defs [w] = .error (missingValue w f) := by
    intro w l f h1 h2 h3
    rw [parseWords.eq_def]
    simp only
    rw [if_neg (fun h => h1 ((operand_iff' w).1 h)), if_neg h2, h3]
  have next : ∀ {w v : Bytes} {l : List (FlagDef × Bytes)} {f : FlagDef} {e : FlagError} (rest : List Bytes), ¬ Operand w → w ≠ b! "--" →
      readWord defs w = .ok (l, some f) → checkValue f v = .error e → parseWords defs (w :: v :: rest) = .error e := by
    intro w v l f e rest h1 h2 h3 h4
    rw [parseWords.eq_def]
    simp only
    rw [if_neg (fun h => h1 ((operand_iff' w).1 h)), if_neg h2, h3]
    simp only
    rw [h4]
  have long : ∀ {f : FlagDef}, f ∈ defs → TakesValue f → ¬ Operand (b! "--" ++ f.name) ∧ b! "--" ++ f.name ≠ b! "--" ∧
      readWord defs (b! "--" ++ f.name) = .ok ([], some f) := by
    intro f hf ht'
    obtain ⟨h1, h2, h3⟩ := ht.name f hf
    refine ⟨?_, fun h => h1 (List.append_cancel_left (h.trans (List.append_nil _).symm)), ?_⟩
    · rintro (h | h)
      · exact h rfl
      · injection h with _ h; cases h
    · rw [readWord, if_pos ⟨_, rfl⟩]
      exact (readLong_iff ht _ _ _).2 ⟨f, hf, .inr (.inr ⟨rfl, ht', rfl, rfl⟩)⟩
  have short : ∀ {r : Bytes} {l : List (FlagDef × Bytes)} {f : FlagDef}, r.head? ≠ some 45 → Cluster defs r l (some f) →
      ¬ Operand (b! "-" ++ r) ∧ b! "-" ++ r ≠ b! "--" ∧ readWord defs (b! "-" ++ r) = .ok (l, some f) ∧ ¬ b! "--" <+: b! "-" ++ r := by
    intro r l f h1 h2
    have hr : r ≠ [] := by rintro rfl; cases h2
    have hnp : ¬ b! "--" <+: b! "-" ++ r := by
      rintro ⟨x, hx⟩
      injection hx with _ hx
      exact h1 (by rw [← show [45] ++ x = r from hx]; rfl)
    refine ⟨?_, ?_, ?_, hnp⟩
    · rintro (h | h)
      · exact h rfl
      · injection h with _ h; exact hr h
    · intro h
      injection h with _ h; rw [show r = [45] from h] at h1; exact h1 rfl
    · rw [readWord, if_neg hnp]
      exact (readShort_iff ht _ _ _).2 h2
  cases h with
  | word h1 h2 =>
    obtain ⟨h3, h4⟩ := badWord_option h2
    obtain ⟨e, h5, h6⟩ := (readWord_error_iff ht h3 h4 _).2 h2
    refine ⟨e, whole_error ht h1 ?_, h6⟩
    rw [parseWords.eq_def]
    simp only
    rw [if_neg (fun h => h3 ((operand_iff' _).1 h)), if_neg h4, h5]
  | missing h1 h2 h3 =>
    obtain ⟨l1, l2, l3⟩ := long h2 h3
    refine ⟨_, whole_error ht h1 (last l1 l2 l3), ?_⟩
    rw [missingValue, if_pos ⟨_, rfl⟩]; rfl
  | missingLetter h1 h2 h3 h4 =>
    obtain ⟨l1, l2, l3, l4⟩ := short h2 h3
    refine ⟨_, whole_error ht h1 (last l1 l2 l3), ?_⟩
    rw [missingValue, if_neg l4, h4, letterShown_eq]; rfl
  | value h1 h2 h3 h4 =>
    obtain ⟨l1, l2, l3⟩ := long h2 h3
    obtain ⟨e, h5, h6⟩ := (checkValue_error_iff _ _ _).2 h4
    exact ⟨e, whole_error ht h1 (next _ l1 l2 l3 h5), h6⟩
  | valueLetter h1 h2 h3 h4 =>
    obtain ⟨l1, l2, l3, l4⟩ := short h2 h3
    obtain ⟨e, h5, h6⟩ := (checkValue_error_iff _ _ _).2 h4
    exact ⟨e, whole_error ht h1 (next _ l1 l2 l3 h5), h6⟩

/-- The words are refused exactly for the reasons of the specification, with the messages given there. -/
theorem parseWords_error_iff {defs : List FlagDef} (ht : GoodTable defs) (ws : List Bytes) (m : Bytes) :
    (∃ e, parseWords defs ws = .error e ∧ e.text = m) ↔ Misread defs ws m :=
  ⟨fun ⟨e, h1, h2⟩ => h2 ▸ parseWords_refused ht _ ws (Nat.le_refl _) e h1, parseWords_refuses ht⟩

end Texted
