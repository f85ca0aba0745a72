import Verif.Lemmas.Csv
/- The words of a command line are read exactly as `Spec.CommandLine` says. -/
namespace Texted
open Spec
variable [Ext]

omit [Ext] in
theorem parseBool_true (v : Bytes) : parseBool v = some true ↔ v ∈ trueWords := by
  unfold parseBool
  constructor
  · intro h
    split at h
    · rename_i h'
      rcases h' with rfl | rfl | rfl | rfl | rfl | rfl <;> decide
    · split at h <;> cases h
  · intro h
    simp only [trueWords, List.mem_cons, List.not_mem_nil, or_false] at h
    rcases h with rfl | rfl | rfl | rfl | rfl | rfl <;> decide

omit [Ext] in
theorem parseBool_false (v : Bytes) : parseBool v = some false ↔ v ∈ falseWords := by
  constructor
  · intro h
    unfold parseBool at h
    split at h
    · cases h
    · split at h
      · rename_i h'
        rcases h' with rfl | rfl | rfl | rfl | rfl | rfl <;> decide
      · cases h
  · intro h
    simp only [falseWords, List.mem_cons, List.not_mem_nil, or_false] at h
    rcases h with rfl | rfl | rfl | rfl | rfl | rfl <;> decide

theorem checkValue_iff (f : FlagDef) (v : Bytes) (s : FlagDef × Bytes) : checkValue f v = .ok s ↔ s = (f, v) ∧ Accepts f v := by
  unfold checkValue Accepts
  cases hk : f.kind with
  | str => simp [eq_comm]
  | bool =>
    rw [← parseBool_true, ← parseBool_false]
    cases hb : parseBool v with
    | none => simp
    | some b => cases b <;> simp [eq_comm]
  | slice =>
    cases hb : readAsCSV v with
    | ok fs =>
      have := (readAsCSV_iff v fs).1 hb
      simp only [Except.ok.injEq]
      exact ⟨fun h => ⟨h.symm, fs, this⟩, fun h => h.1.symm⟩
    | error e =>
      refine ⟨fun h => (nomatch h), fun ⟨_, fs, h⟩ => ?_⟩
      rw [(readAsCSV_iff v fs).2 h] at hb
      cases hb

theorem checked_iff (f : FlagDef) (v : Bytes) (l : List (FlagDef × Bytes)) (need : Option FlagDef) :
    ((checkValue f v).map fun s => ([s], none)) = .ok (l, need) ↔ l = [(f, v)] ∧ need = none ∧ Accepts f v := by
  have := checkValue_iff f v
  cases h : checkValue f v with
  | error e =>
    refine ⟨fun h => (nomatch h), fun ⟨_, _, hf⟩ => ?_⟩
    rw [(this (f, v)).2 ⟨rfl, hf⟩] at h; cases h
  | ok s =>
    obtain ⟨rfl, hf⟩ := (this s).1 h
    constructor
    · intro h; injection h with h; injection h with h1 h2; exact ⟨h1.symm, h2.symm, hf⟩
    · rintro ⟨rfl, rfl, _⟩; rfl

omit [Ext] in
theorem findShort_iff {defs : List FlagDef} (ht : GoodTable defs) (c : UInt8) (f : FlagDef) :
    findShort defs c = some f ↔ f ∈ defs ∧ f.short = some c := by
  constructor
  · intro h
    exact ⟨List.mem_of_find?_eq_some h, by simpa using List.find?_some h⟩
  · rintro ⟨h1, h2⟩
    cases h : findShort defs c with
    | none => exact absurd h2 (by simpa using List.find?_eq_none.1 h f h1)
    | some g =>
      have hg : g.short = some c := by simpa using List.find?_some h
      rw [ht.letters f h1 g (List.mem_of_find?_eq_some h) (by rw [h2]; simp) (by rw [h2, hg])]

omit [Ext] in
theorem findLong_iff {defs : List FlagDef} (ht : GoodTable defs) (n : Bytes) (f : FlagDef) :
    findLong defs n = some f ↔ f ∈ defs ∧ f.name = n := by
  constructor
  · intro h
    exact ⟨List.mem_of_find?_eq_some h, by simpa using List.find?_some h⟩
  · rintro ⟨h1, h2⟩
    cases h : findLong defs n with
    | none => exact absurd h2 (by simpa using List.find?_eq_none.1 h f h1)
    | some g =>
      have hg : g.name = n := by simpa using List.find?_some h
      rw [ht.distinct f h1 g (List.mem_of_find?_eq_some h) (by rw [h2, hg])]

omit [Ext] in
theorem cutEquals_none {n : Bytes} (h : 61 ∉ n) : cutEquals n = (n, none) := by
  induction n with
  | nil => rfl
  | cons c r ih =>
    rw [cutEquals, if_neg (by intro hc; exact h (by simp [hc])), ih (fun hr => h (by simp [hr]))]

omit [Ext] in
theorem cutEquals_some {n v : Bytes} (h : 61 ∉ n) : cutEquals (n ++ 61 :: v) = (n, some v) := by
  induction n with
  | nil => rfl
  | cons c r ih =>
    rw [List.cons_append, cutEquals, if_neg (by intro hc; exact h (by simp [hc])), ih (fun hr => h (by simp [hr]))]

omit [Ext] in
theorem cutEquals_back (s : Bytes) : s = (cutEquals s).1 ++ (match (cutEquals s).2 with | none => [] | some v => 61 :: v) := by
  induction s with
  | nil => rfl
  | cons c r ih =>
    rw [cutEquals]
    split
    · rename_i h; rw [h]; rfl
    · simp only [List.cons_append, List.cons.injEq, true_and]
      exact ih

omit [Ext] in
theorem assigns_iff (r : Bytes) : (r.length > 1 ∧ r.head? = some 61) ↔ Assigns r := by
  constructor
  · rintro ⟨h1, h2⟩
    match r with
    | c :: d :: r => exact ⟨d :: r, by simp, by simp at h2; rw [h2]⟩
  · rintro ⟨v, hv, rfl⟩
    cases v with
    | nil => exact absurd rfl hv
    | cons c v => simp

theorem readShort_iff {defs : List FlagDef} (ht : GoodTable defs) (s : Bytes) : ∀ l need,
    readShort defs s = .ok (l, need) ↔ Cluster defs s l need := by
  induction s with
  | nil =>
    intro l need
    constructor
    · intro h; injection h with h; injection h with h1 h2; subst h1; subst h2; exact .done
    · intro h; generalize hs : ([] : Bytes) = s at h; cases h <;> first | rfl | cases hs
  | cons c r ih =>
    intro l need
    rw [readShort]
    by_cases htest : b! "test." <+: c :: r
    · rw [if_pos htest]
      have hc : c = 116 := by
        obtain ⟨t, ht⟩ := htest
        injection ht with h; exact h.symm
      constructor
      · intro h; injection h with h; injection h with h1 h2; subst h1; subst h2
        obtain ⟨t, ht⟩ := htest
        rw [← ht]; exact .ignored
      · intro h
        generalize hs : c :: r = s at h
        cases h with
        | done => rfl
        | ignored => rfl
        | switch h1 h2 => injection hs with e; rw [← e, hc] at h2; exact absurd h2 (ht.noT _ h1).1
        | equals h1 h2 => injection hs with e; rw [← e, hc] at h2; exact absurd h2 (ht.noT _ h1).1
        | joined h1 h2 => injection hs with e; rw [← e, hc] at h2; exact absurd h2 (ht.noT _ h1).1
        | next h1 h2 => injection hs with e; rw [← e, hc] at h2; exact absurd h2 (ht.noT _ h1).1
    · rw [if_neg htest]
      constructor
      · intro h
        cases hf : findShort defs c with
        | none => rw [hf] at h; cases h
        | some f =>
          rw [hf] at h
          obtain ⟨f1, f2⟩ := (findShort_iff ht c f).1 hf
          simp only at h
          by_cases ha : Assigns r
          · rw [if_pos ((assigns_iff r).2 ha), checked_iff] at h
            obtain ⟨rfl, rfl, h3⟩ := h
            obtain ⟨v, hv, rfl⟩ := ha
            exact .equals f1 f2 hv h3
          · rw [if_neg (fun h => ha ((assigns_iff r).1 h))] at h
            by_cases hb : f.kind = .bool
            · rw [if_pos hb] at h
              cases hr : readShort defs r with
              | error e => rw [hr] at h; cases h
              | ok p =>
                obtain ⟨l', n'⟩ := p
                rw [hr] at h
                injection h with h; injection h with h1 h2; subst h1; subst h2
                exact .switch f1 f2 hb ha ((ih l' n').1 hr)
            · rw [if_neg hb] at h
              by_cases hr : r = []
              · rw [if_neg (by simp [hr])] at h
                injection h with h; injection h with h1 h2; subst h1; subst h2; subst hr
                exact .next f1 f2 hb
              · rw [if_pos hr, checked_iff] at h
                obtain ⟨rfl, rfl, h3⟩ := h
                exact .joined f1 f2 hb hr ha h3
      · intro h
        generalize hs : c :: r = s at h
        cases h with
        | done => cases hs
        | ignored => exact absurd ⟨_, hs.symm⟩ htest
        | switch h1 h2 h3 h4 h5 =>
          injection hs with e1 e2; subst e1; subst e2
          rw [(findShort_iff ht _ _).2 ⟨h1, h2⟩]
          simp only
          rw [if_neg (fun h => h4 ((assigns_iff r).1 h)), if_pos h3, (ih _ _).2 h5]
        | equals h1 h2 h3 h4 =>
          injection hs with e1 e2; subst e1; subst e2
          rw [(findShort_iff ht _ _).2 ⟨h1, h2⟩]
          simp only
          rw [if_pos ((assigns_iff _).2 ⟨_, h3, rfl⟩), checked_iff]
          exact ⟨rfl, rfl, h4⟩
        | joined h1 h2 h3 h4 h5 h6 =>
          injection hs with e1 e2; subst e1; subst e2
          rw [(findShort_iff ht _ _).2 ⟨h1, h2⟩]
          simp only
          rw [if_neg (fun h => h5 ((assigns_iff _).1 h)), if_neg h3, if_pos h4, checked_iff]
          exact ⟨rfl, rfl, h6⟩
        | next h1 h2 h3 =>
          injection hs with e1 e2; subst e1; subst e2
          rw [(findShort_iff ht _ _).2 ⟨h1, h2⟩]
          simp only
          rw [if_neg (by simp), if_neg h3, if_neg (by simp)]

/-- A word that begins with `--`. -/
theorem readLong_iff {defs : List FlagDef} (ht : GoodTable defs) (name : Bytes) (l : List (FlagDef × Bytes)) (need : Option FlagDef) :
    readLong defs name = .ok (l, need) ↔ ∃ f ∈ defs,
      (name = f.name ∧ f.kind = .bool ∧ l = [(f, b! "true")] ∧ need = none) ∨
      (∃ v, name = f.name ++ 61 :: v ∧ Accepts f v ∧ l = [(f, v)] ∧ need = none) ∨
      (name = f.name ∧ TakesValue f ∧ l = [] ∧ need = some f) := by
  unfold readLong
  constructor
  · intro h
    by_cases hn : name.head? = some 45 ∨ name.head? = some 61
    · rw [if_pos hn] at h; cases h
    rw [if_neg hn] at h
    have hb := cutEquals_back name
    cases hf : findLong defs (cutEquals name).1 with
    | none => rw [hf] at h; cases h
    | some f =>
      rw [hf] at h
      obtain ⟨f1, f2⟩ := (findLong_iff ht _ f).1 hf
      refine ⟨f, f1, ?_⟩
      simp only at h
      cases hc : (cutEquals name).2 with
      | some v =>
        rw [hc] at h hb
        simp only at h
        rw [checked_iff] at h
        obtain ⟨rfl, rfl, h3⟩ := h
        exact .inr (.inl ⟨v, by rw [f2]; exact hb, h3, rfl, rfl⟩)
      | none =>
        rw [hc] at h hb
        have hb : name = f.name := by rw [f2]; simpa using hb
        simp only at h
        by_cases hk : f.kind = .bool
        · rw [if_pos hk] at h
          injection h with h; injection h with h1 h2; subst h1; subst h2
          exact .inl ⟨hb, hk, rfl, rfl⟩
        · rw [if_neg hk] at h
          injection h with h; injection h with h1 h2; subst h1; subst h2
          exact .inr (.inr ⟨hb, hk, rfl, rfl⟩)
  · rintro ⟨f, hf, h⟩
    obtain ⟨n1, n2, n3⟩ := ht.name f hf
    have hhead : ∀ x : Bytes, ¬ ((f.name ++ x).head? = some 45 ∨ (f.name ++ x).head? = some 61) := by
      intro x
      cases hnm : f.name with
      | nil => exact absurd hnm n1
      | cons c r =>
        rw [hnm] at n2 n3
        simp only [List.cons_append, List.head?_cons, Option.some.injEq] at n2 ⊢
        rintro (h | h)
        · exact n2 (by rw [h])
        · exact n3 (by simp [h])
    rcases h with ⟨rfl, h2, rfl, rfl⟩ | ⟨v, rfl, h2, rfl, rfl⟩ | ⟨rfl, h2, rfl, rfl⟩
    · rw [if_neg (by simpa using hhead []), cutEquals_none n3, (findLong_iff ht _ f).2 ⟨hf, rfl⟩]
      simp only
      rw [if_pos h2]
    · rw [if_neg (hhead _), cutEquals_some n3, (findLong_iff ht _ f).2 ⟨hf, rfl⟩]
      simp only
      rw [checked_iff]; exact ⟨rfl, rfl, h2⟩
    · rw [if_neg (by simpa using hhead []), cutEquals_none n3, (findLong_iff ht _ f).2 ⟨hf, rfl⟩]
      simp only
      rw [if_neg h2]

omit [Ext] in
theorem operand_iff (w : Bytes) : (w.head? ≠ some 45 ∨ w.length = 1) ↔ Operand w ∨ w.length = 1 := by
  unfold Operand
  constructor
  · rintro (h | h)
    · exact .inl (.inl h)
    · exact .inr h
  · rintro ((h | rfl) | h)
    · exact .inl h
    · exact .inr rfl
    · exact .inr h

omit [Ext] in
theorem operand_iff' (w : Bytes) : (w.head? ≠ some 45 ∨ w.length = 1) ↔ Operand w := by
  rw [operand_iff]
  refine ⟨?_, .inl⟩
  rintro (h | h)
  · exact h
  · match w with
    | [c] =>
      by_cases hc : c = 45
      · exact .inr (by rw [hc])
      · exact .inl (by simpa using hc)

/-- What words may be options, in terms of reading one. -/
theorem optionWords_cases {defs : List FlagDef} (ht : GoodTable defs) {o : List Bytes} {s : List (FlagDef × Bytes)} (h : OptionWords defs o s) :
    ∃ w, ¬ Operand w ∧ w ≠ b! "--" ∧
      ((o = [w] ∧ readWord defs w = .ok (s, none)) ∨
       (∃ v l f, o = [w, v] ∧ readWord defs w = .ok (l, some f) ∧ Accepts f v ∧ s = l ++ [(f, v)])) := by
  have long : ∀ f ∈ defs, ∀ x, ¬ Operand (b! "--" ++ (f.name ++ x)) ∧ b! "--" ++ (f.name ++ x) ≠ b! "--" := by
    intro f hf x
    obtain ⟨n1, n2, n3⟩ := ht.name f hf
    refine ⟨?_, ?_⟩
    · rintro (h | h)
      · exact h rfl
      · simp at h
    · intro h
      have : f.name ++ x = [] := List.append_cancel_left (h.trans (List.append_nil _).symm)
      exact n1 (List.append_eq_nil_iff.1 this).1
  have dash : b! "--" = [45, 45] := rfl
  have dash1 : b! "-" = [45] := rfl
  have rl : ∀ x, readWord defs (b! "--" ++ x) = readLong defs x := by
    intro x; rw [readWord, if_pos ⟨x, rfl⟩]; rfl
  cases h with
  | switch h1 h2 =>
    rename_i f
    have := long f h1 []
    rw [List.append_nil] at this
    exact ⟨_, this.1, this.2, .inl ⟨rfl, by rw [rl, readLong_iff ht]; exact ⟨f, h1, .inl ⟨rfl, h2, rfl, rfl⟩⟩⟩⟩
  | assigned h1 h2 =>
    rename_i f v
    have := long f h1 (61 :: v)
    have e : b! "--" ++ f.name ++ b! "=" ++ v = b! "--" ++ (f.name ++ 61 :: v) := by simp
    exact ⟨_, this.1, this.2, .inl ⟨by rw [e], by rw [rl, readLong_iff ht]; exact ⟨f, h1, .inr (.inl ⟨v, rfl, h2, rfl, rfl⟩)⟩⟩⟩
  | separate h1 h2 h3 =>
    rename_i f v
    have := long f h1 []
    rw [List.append_nil] at this
    exact ⟨_, this.1, this.2, .inr ⟨v, [], f, rfl, by rw [rl, readLong_iff ht]; exact ⟨f, h1, .inr (.inr ⟨rfl, h2, rfl, rfl⟩)⟩, h3, rfl⟩⟩
  | letters h1 h2 h3 =>
    rename_i r
    have hr : readWord defs (b! "-" ++ r) = readShort defs r := by
      rw [readWord, if_neg]
      · rfl
      · rintro ⟨t, ht⟩
        injection ht with _ h
        rw [← show _ = r from h] at h2; exact h2 rfl
    refine ⟨_, ?_, ?_, .inl ⟨rfl, by rw [hr, readShort_iff ht]; exact h3⟩⟩
    · rintro (h | h)
      · exact h rfl
      · exact h1 (List.append_cancel_left (h.trans (List.append_nil _).symm))
    · intro h
      injection h with _ h
      rw [show r = [45] from h] at h2; exact h2 rfl
  | lettersValue h2 h3 h4 =>
    rename_i r l f v
    have h1 : r ≠ [] := by
      rintro rfl
      generalize hs : ([] : Bytes) = r at h3
      generalize hn : some f = n at h3
      cases h3 <;> first | (cases hn; done) | (cases hs; done) | exact absurd hs (by simp)
    have hr : readWord defs (b! "-" ++ r) = readShort defs r := by
      rw [readWord, if_neg]
      · rfl
      · rintro ⟨t, ht⟩
        injection ht with _ h
        rw [← show _ = r from h] at h2; exact h2 rfl
    refine ⟨_, ?_, ?_, .inr ⟨v, l, f, rfl, by rw [hr, readShort_iff ht]; exact h3, h4, rfl⟩⟩
    · rintro (h | h)
      · exact h rfl
      · exact h1 (List.append_cancel_left (h.trans (List.append_nil _).symm))
    · intro h
      injection h with _ h
      rw [show r = [45] from h] at h2; exact h2 rfl

/-- A word that reads without error is an option in writing. -/
theorem readWord_sound {defs : List FlagDef} (ht : GoodTable defs) {w : Bytes} (hw : ¬ Operand w) (hd : w ≠ b! "--") {l : List (FlagDef × Bytes)}
    {need : Option FlagDef} (h : readWord defs w = .ok (l, need)) :
    (need = none → OptionWords defs [w] l) ∧ (∀ f, need = some f → ∀ v, Accepts f v → OptionWords defs [w, v] (l ++ [(f, v)])) := by
  unfold readWord at h
  by_cases hp : b! "--" <+: w
  · rw [if_pos hp, readLong_iff ht] at h
    obtain ⟨x, rfl⟩ := hp
    obtain ⟨f, hf, h⟩ := h
    have e : (b! "--" ++ x).drop 2 = x := rfl
    rw [e] at h
    rcases h with ⟨rfl, h2, rfl, rfl⟩ | ⟨v, rfl, h2, rfl, rfl⟩ | ⟨rfl, h2, rfl, rfl⟩
    · exact ⟨fun _ => .switch hf h2, fun _ h => (nomatch h)⟩
    · refine ⟨fun _ => ?_, fun _ h => (nomatch h)⟩
      have := OptionWords.assigned hf h2
      simpa using this
    · refine ⟨fun h => (nomatch h), fun g hg v hv => ?_⟩
      injection hg with hg; subst hg
      exact .separate hf h2 hv
  · rw [if_neg hp, readShort_iff ht] at h
    have hh : w.head? = some 45 := by
      exact Decidable.byContradiction fun hc => hw (.inl hc)
    obtain ⟨r, rfl⟩ : ∃ r, w = b! "-" ++ r := by
      cases w with
      | nil => cases hh
      | cons c r => exact ⟨r, by simp at hh; rw [hh]; rfl⟩
    have e : (b! "-" ++ r).drop 1 = r := rfl
    rw [e] at h
    have h1 : r ≠ [] := by rintro rfl; exact hw (.inr rfl)
    have h2 : r.head? ≠ some 45 := by
      intro hc
      cases r with
      | nil => cases hc
      | cons c r => simp at hc; rw [hc] at hp; exact hp ⟨r, rfl⟩
    exact ⟨fun hn => .letters h1 h2 (hn ▸ h), fun f hf v hv => .lettersValue h2 (hf ▸ h) hv⟩

omit [Ext] in
theorem addSettings_ok {l : List (FlagDef × Bytes)} {r : Except FlagError (List (FlagDef × Bytes) × List Bytes)} {p : List (FlagDef × Bytes) × List Bytes}
    (h : addSettings l r = .ok p) : ∃ s, r = .ok (s, p.2) ∧ p.1 = l ++ s := by
  cases r with
  | error e => cases h
  | ok q => obtain ⟨s, fs⟩ := q; injection h with h; subst h; exact ⟨s, rfl, rfl⟩

theorem parseWords_sound {defs : List FlagDef} (ht : GoodTable defs) : ∀ (n : Nat) (ws : List Bytes), ws.length ≤ n → ∀ l files,
    parseWords defs ws = .ok (l, files) → CommandLine defs ws l files := by
  intro n
  induction n with
  | zero =>
    intro ws hn l files h
    match ws with
    | [] => injection h with h; injection h with h1 h2; subst h1; subst h2; exact .nil
  | succ n ih =>
    intro ws hn l files h
    match ws with
    | [] => injection h with h; injection h with h1 h2; subst h1; subst h2; exact .nil
    | w :: rest =>
      simp only [List.length_cons] at hn
      rw [parseWords.eq_def] at h
      simp only at h
      by_cases hop : w.head? ≠ some 45 ∨ w.length = 1
      · rw [if_pos hop] at h
        cases hr : parseWords defs rest with
        | error e => rw [hr] at h; cases h
        | ok p =>
          obtain ⟨s, fs⟩ := p
          rw [hr] at h
          injection h with h; injection h with h1 h2; subst h1; subst h2
          exact .operand ((operand_iff' w).1 hop) (ih rest (by omega) _ _ hr)
      rw [if_neg hop] at h
      have hop' : ¬ Operand w := fun h => hop ((operand_iff' w).2 h)
      by_cases hd : w = b! "--"
      · rw [if_pos hd] at h
        injection h with h; injection h with h1 h2; subst h1; subst h2; subst hd
        exact .dashes
      rw [if_neg hd] at h
      cases hr : readWord defs w with
      | error e => rw [hr] at h; cases h
      | ok p =>
        obtain ⟨l0, need⟩ := p
        rw [hr] at h
        have hw := readWord_sound ht hop' hd hr
        cases need with
        | none =>
          obtain ⟨s, h1, h2⟩ := addSettings_ok h
          simp only at h2; subst h2
          exact .option (hw.1 rfl) (ih rest (by omega) _ _ h1)
        | some f =>
          match rest with
          | [] => cases h
          | v :: rest' =>
            simp only [List.length_cons] at hn
            simp only at h
            cases hc : checkValue f v with
            | error e => rw [hc] at h; cases h
            | ok s =>
              rw [hc] at h
              obtain ⟨rfl, hf⟩ := (checkValue_iff f v s).1 hc
              obtain ⟨s, h1, h2⟩ := addSettings_ok h
              simp only at h2; subst h2
              exact .option (hw.2 f rfl v hf) (ih rest' (by omega) _ _ h1)

theorem parseWords_operand {defs : List FlagDef} {w : Bytes} (h : Operand w) (rest : List Bytes) :
    parseWords defs (w :: rest) = match parseWords defs rest with
      | .ok (s, files) => .ok (s, w :: files)
      | .error e => .error e := by
  rw [parseWords.eq_def]
  simp only
  rw [if_pos ((operand_iff' w).2 h)]
  cases parseWords defs rest <;> rfl

theorem parseWords_option {defs : List FlagDef} (ht : GoodTable defs) {o : List Bytes} {s : List (FlagDef × Bytes)} (h : OptionWords defs o s) (rest : List Bytes) :
    parseWords defs (o ++ rest) = addSettings s (parseWords defs rest) := by
  obtain ⟨w, h1, h2, h3⟩ := optionWords_cases ht h
  have hop : ¬ (w.head? ≠ some 45 ∨ w.length = 1) := fun h => h1 ((operand_iff' w).1 h)
  rcases h3 with ⟨rfl, h3⟩ | ⟨v, l, f, rfl, h3, h4, rfl⟩
  · rw [List.singleton_append, parseWords.eq_def]
    simp only
    rw [if_neg hop, if_neg h2, h3]
  · rw [List.cons_append, List.singleton_append, parseWords.eq_def]
    simp only
    rw [if_neg hop, if_neg h2, h3]
    simp only
    rw [(checkValue_iff f v _).2 ⟨rfl, h4⟩]

theorem parseWords_complete {defs : List FlagDef} (ht : GoodTable defs) {ws : List Bytes} {l : List (FlagDef × Bytes)} {files : List Bytes}
    (h : CommandLine defs ws l files) : parseWords defs ws = .ok (l, files) := by
  induction h with
  | nil => rfl
  | dashes =>
    rw [parseWords.eq_def]
    simp only
    rw [if_neg (by decide), if_pos trivial]
  | operand h1 _ ih => rw [parseWords_operand h1, ih]
  | option h1 _ ih => rw [parseWords_option ht h1, ih]; rfl

/-- The words are read exactly as the specification says. -/
theorem parseWords_iff {defs : List FlagDef} (ht : GoodTable defs) (ws : List Bytes) (l : List (FlagDef × Bytes)) (files : List Bytes) :
    parseWords defs ws = .ok (l, files) ↔ CommandLine defs ws l files :=
  ⟨parseWords_sound ht _ ws (Nat.le_refl _) l files, parseWords_complete ht⟩

end Texted
