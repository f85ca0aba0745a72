import Verif.Model.Flags
import Verif.Spec.Flags
import Verif.Lemmas.Parse
import Verif.Lemmas.LitExt
/-
C68: what the values of `-e` arrive as.
-/
namespace Texted
open Spec

variable [Ext]

omit [Ext] in
theorem csvNormal_cons {c : UInt8} (h : c ≠ 13) (r : Bytes) : csvNormal (c :: r) = c :: csvNormal r := by
  rw [csvNormal.eq_def]; split <;> simp_all

omit [Ext] in
theorem csvNormal_crlf (r : Bytes) : csvNormal (13 :: 10 :: r) = 10 :: csvNormal r := by
  rw [csvNormal.eq_def]; rfl

omit [Ext] in
theorem csvNormal_cr {c : UInt8} (h : c ≠ 10) (r : Bytes) : csvNormal (13 :: c :: r) = 13 :: csvNormal (c :: r) := by
  rw [csvNormal.eq_def]; simp

omit [Ext] in
theorem unCRLF_cons {c : UInt8} (h : c ≠ 13) (r : Bytes) : unCRLF (c :: r) = c :: unCRLF r := by
  rw [unCRLF.eq_def]; split <;> simp_all

omit [Ext] in
theorem unCRLF_cr {c : UInt8} (h : c ≠ 10) (r : Bytes) : unCRLF (13 :: c :: r) = 13 :: unCRLF (c :: r) := by
  rw [unCRLF.eq_def]; simp

omit [Ext] in
theorem unCRLF_id (f : Bytes) (h : ∀ c ∈ f, c ≠ 13) : unCRLF f = f := by
  induction f with
  | nil => rfl
  | cons c f ih => rw [unCRLF_cons (h c (by simp)), ih fun c hc => h c (by simp [hc])]

omit [Ext] in
theorem csvEscape_head (d : UInt8) (r x : Bytes) (h : d ≠ 10) : ∃ e t, csvEscape (d :: r) ++ x = e :: t ∧ e ≠ 10 := by
  rw [csvEscape]
  split
  · exact ⟨34, 34 :: (csvEscape r ++ x), rfl, by decide⟩
  · exact ⟨d, csvEscape r ++ x, rfl, h⟩

omit [Ext] in
/-- A quoted field is read back, up to the closing quote. -/
theorem scan_quoted (f : Bytes) : ∀ acc rest,
    csvScan (.quoted acc) (csvNormal (csvEscape f ++ 34 :: rest)) = csvScan (.closed (acc ++ unCRLF f)) (csvNormal rest) := by
  generalize hn : f.length = n
  induction n using Nat.strongRecOn generalizing f with
  | ind n ih =>
    intro acc rest
    match f with
    | [] =>
      rw [csvEscape, List.nil_append, csvNormal_cons (by decide), csvScan, if_pos rfl, unCRLF, List.append_nil]
    | c :: r =>
      have ihr := ih r.length (by simp at hn; omega) r rfl
      by_cases h13 : c = 13
      · subst h13
        match r with
        | [] =>
          show csvScan (.quoted acc) (csvNormal (13 :: 34 :: rest)) = _
          rw [csvNormal_cr (by decide), csvNormal_cons (by decide)]
          rfl
        | d :: r' =>
          by_cases h10 : d = 10
          · subst h10
            show csvScan (.quoted acc) (csvNormal (13 :: 10 :: (csvEscape r' ++ 34 :: rest))) = _
            rw [csvNormal_crlf, csvScan, if_neg (by decide), ih r'.length (by simp at hn; omega) r' rfl]
            show _ = csvScan (.closed (acc ++ (10 :: unCRLF r'))) (csvNormal rest)
            simp
          · rw [csvEscape, if_neg (by decide), List.cons_append]
            obtain ⟨e, t, h1, h2⟩ := csvEscape_head d r' (34 :: rest) h10
            rw [h1, csvNormal_cr h2, ← h1, csvScan, if_neg (by decide), ihr, unCRLF_cr h10]
            simp
      · rw [unCRLF_cons h13]
        by_cases h34 : c = 34
        · subst h34
          rw [csvEscape, if_pos rfl, List.cons_append, List.cons_append, csvNormal_cons (by decide), csvNormal_cons (by decide),
            csvScan, if_pos rfl, csvScan, if_pos rfl, ihr]
          simp
        · rw [csvEscape, if_neg h34, List.cons_append, csvNormal_cons h13, csvScan, if_neg h34, ihr]
          simp

/-- A byte that means nothing to the CSV reader. -/
def PlainByte (c : UInt8) : Prop := c ≠ 10 ∧ c ≠ 13 ∧ c ≠ 34 ∧ c ≠ 44

omit [Ext] in
theorem scan_bare (f : Bytes) (h : ∀ c ∈ f, PlainByte c) : ∀ acc rest,
    csvScan (.bare acc) (csvNormal (f ++ rest)) = csvScan (.bare (acc ++ f)) (csvNormal rest) := by
  induction f with
  | nil => simp
  | cons c f ih =>
    intro acc rest
    obtain ⟨h1, h2, h3, h4⟩ := h c (by simp)
    rw [List.cons_append, csvNormal_cons h2, csvScan, if_neg (show ¬ c = nl from h1), if_neg h3, if_neg h4, ih fun c hc => h c (by simp [hc])]
    simp

omit [Ext] in
theorem needsQuotes_false {f : Bytes} (h : csvNeedsQuotes f = false) : ∀ c ∈ f, PlainByte c := by
  intro c hc
  simp only [csvNeedsQuotes, Bool.and_eq_false_iff, Bool.or_eq_false_iff, List.any_eq_false] at h
  rcases h with h | ⟨⟨_, h⟩, _⟩
  · simp at h; subst h; cases hc
  · have := h c hc
    simp at this
    obtain ⟨⟨⟨a, b⟩, c⟩, d⟩ := this
    exact ⟨a, b, c, d⟩

omit [Ext] in
theorem scan_field_comma (f rest : Bytes) :
    csvScan .start (csvNormal (csvField f ++ 44 :: rest)) = csvEmit (unCRLF f) (csvScan .start (csvNormal rest)) := by
  unfold csvField
  split
  · rw [List.append_assoc, List.append_assoc, List.singleton_append, List.singleton_append, csvNormal_cons (by decide), csvScan,
      if_neg (by decide), if_pos rfl, scan_quoted, csvNormal_cons (by decide), csvScan, if_neg (by decide), if_pos rfl]
    simp
  · rename_i h
    have hp := needsQuotes_false (by simpa using h)
    rw [unCRLF_id f fun c hc => (hp c hc).2.1]
    cases f with
    | nil => rw [List.nil_append, csvNormal_cons (by decide), csvScan, if_neg (by decide), if_neg (by decide), if_pos rfl]
    | cons c f =>
      obtain ⟨h1, h2, h3, h4⟩ := hp c (by simp)
      rw [List.cons_append, csvNormal_cons h2, csvScan, if_neg (show ¬ c = nl from h1), if_neg h3, if_neg h4, scan_bare f (fun c hc => hp c (by simp [hc])),
        csvNormal_cons (by decide), csvScan, if_neg (by decide), if_neg (by decide), if_pos rfl]
      simp

omit [Ext] in
theorem scan_field_last (f : Bytes) : csvScan .start (csvNormal (csvField f)) = .ok [unCRLF f] := by
  unfold csvField
  split
  · rw [List.append_assoc, List.singleton_append, csvNormal_cons (by decide), csvScan,
      if_neg (by decide), if_pos rfl, scan_quoted]
    rfl
  · rename_i h
    have hp := needsQuotes_false (by simpa using h)
    rw [unCRLF_id f fun c hc => (hp c hc).2.1]
    cases f with
    | nil => rfl
    | cons c f =>
      obtain ⟨h1, h2, h3, h4⟩ := hp c (by simp)
      have := scan_bare f (fun c hc => hp c (by simp [hc])) [c] []
      rw [List.append_nil] at this
      rw [csvNormal_cons h2, csvScan, if_neg (show ¬ c = nl from h1), if_neg h3, if_neg h4, this]
      rfl

omit [Ext] in
theorem scan_record (vals : List Bytes) (h : vals ≠ []) :
    csvScan .start (csvNormal (writeAsCSV vals)) = .ok (vals.map unCRLF) := by
  induction vals with
  | nil => exact absurd rfl h
  | cons f r ih =>
    cases r with
    | nil => exact scan_field_last f
    | cons g r =>
      have : writeAsCSV (f :: g :: r) = csvField f ++ 44 :: writeAsCSV (g :: r) := by
        simp [writeAsCSV, joinWith]
      rw [this, scan_field_comma, ih (by simp)]
      rfl

omit [Ext] in
theorem csvNormal_nil_iff_plain {s : Bytes} {c : UInt8} {r : Bytes} (h : s = c :: r) (h13 : c ≠ 13) (h10 : c ≠ 10) :
    (csvNormal s).dropWhile (· = nl) = csvNormal s ∧ csvNormal s ≠ [] := by
  subst h
  rw [csvNormal_cons h13]
  have : c ≠ nl := h10
  simp [this]

omit [Ext] in
theorem csvField_start (f x : Bytes) (h : f ≠ [] ∨ ∃ y, x = 44 :: y) : ∃ c r, csvField f ++ x = c :: r ∧ c ≠ 13 ∧ c ≠ 10 := by
  unfold csvField
  split
  · exact ⟨34, _, rfl, by decide, by decide⟩
  · rename_i hq
    have hp := needsQuotes_false (by simpa using hq)
    cases f with
    | nil =>
      rcases h with h | ⟨y, rfl⟩
      · exact absurd rfl h
      · exact ⟨44, y, rfl, by decide, by decide⟩
    | cons c f => exact ⟨c, f ++ x, rfl, (hp c (by simp)).2.1, (hp c (by simp)).1⟩

omit [Ext] in
/-- `texted edit` looks at the values twice: pflag stores the fields, and reading the option back prints them as CSV and parses
that. The second reading never fails, and changes nothing but CR LF into LF — and that a single empty value disappears. -/
theorem C68_second_reading (vals : List Bytes) :
    getStringSlice vals = .ok (if vals = [[]] then [] else vals.map unCRLF) := by
  match vals with
  | [] => rfl
  | [f] =>
    by_cases hf : f = []
    · subst hf; rfl
    · obtain ⟨c, r, h1, h2, h3⟩ := csvField_start f [] (.inl hf)
      rw [List.append_nil] at h1
      have hw : writeAsCSV [f] = csvField f := by simp [writeAsCSV, joinWith]
      obtain ⟨h4, h5⟩ := csvNormal_nil_iff_plain (hw.trans h1) h2 h3
      rw [getStringSlice, readAsCSV, if_neg (by rw [hw, h1]; simp), h4]
      have := scan_record [f] (by simp)
      rw [if_neg (by simpa using hf), ← this]
      split
      · rename_i h; exact absurd h h5
      · rfl
  | f :: g :: r =>
    have hw : writeAsCSV (f :: g :: r) = csvField f ++ 44 :: writeAsCSV (g :: r) := by simp [writeAsCSV, joinWith]
    obtain ⟨c, t, h1, h2, h3⟩ := csvField_start f (44 :: writeAsCSV (g :: r)) (.inr ⟨_, rfl⟩)
    obtain ⟨h4, h5⟩ := csvNormal_nil_iff_plain (hw.trans h1) h2 h3
    rw [getStringSlice, readAsCSV, if_neg (by rw [hw, h1]; simp), h4]
    have := scan_record (f :: g :: r) (by simp)
    rw [if_neg (by simp), ← this]
    split
    · rename_i h; exact absurd h h5
    · rfl

/-- What the command does, once all the values are accepted. -/
theorem C68_accepted (occ vals : List Bytes) (a : EditArgs) (h : setStringSlice occ = .ok vals) :
    editCommand occ a = runEdit { a with expressions := if vals = [[]] then [] else vals.map unCRLF } := by
  rw [editCommand, h]
  simp only [C68_second_reading]

omit [Ext] in
theorem setStringSlice_all (occ : List Bytes) (f : Bytes → List Bytes) (h : ∀ v ∈ occ, readAsCSV v = .ok (f v)) :
    setStringSlice occ = .ok (occ.flatMap f) := by
  induction occ with
  | nil => rfl
  | cons v r ih =>
    rw [setStringSlice, h v (by simp)]
    simp only [ih fun v hv => h v (by simp [hv])]
    rfl

/-! ### Values without quotes and line ends: split at commas -/

omit [Ext] in
theorem scan_bare_split (v : Bytes) (h : OneLine v) : ∀ acc, ∃ l ls, splitByte 44 v = l :: ls ∧
    csvScan (.bare acc) (csvNormal v) = .ok ((acc ++ l) :: ls) ∧ csvScan .start (csvNormal v) = .ok (l :: ls) := by
  induction v with
  | nil => intro acc; exact ⟨[], [], rfl, by rw [List.append_nil]; rfl, rfl⟩
  | cons c v ih =>
    intro acc
    obtain ⟨h1, h2, h3⟩ := h c (by simp)
    have hv : OneLine v := fun c hc => h c (by simp [hc])
    by_cases h4 : c = 44
    · subst h4
      obtain ⟨l, ls, g1, g2, g3⟩ := ih hv []
      refine ⟨[], l :: ls, by simp [splitByte, g1], ?_, ?_⟩
      · rw [csvNormal_cons h2, csvScan, if_neg (by decide), if_neg h3, if_pos rfl, g3]; simp [csvEmit]
      · rw [csvNormal_cons h2, csvScan, if_neg (by decide), if_neg h3, if_pos rfl, g3]; simp [csvEmit]
    · obtain ⟨l, ls, g1, g2, g3⟩ := ih hv (acc ++ [c])
      obtain ⟨l', ls', g1', g2', g3'⟩ := ih hv [c]
      rw [g1] at g1'
      injection g1' with e1 e2
      subst e1 e2
      refine ⟨c :: l, ls, by simp [splitByte, h4, g1], ?_, ?_⟩
      · rw [csvNormal_cons h2, csvScan, if_neg (show ¬ c = nl from h1), if_neg h3, if_neg h4, g2]; simp
      · rw [csvNormal_cons h2, csvScan, if_neg (show ¬ c = nl from h1), if_neg h3, if_neg h4, g2']; simp

omit [Ext] in
theorem readAsCSV_oneLine (v : Bytes) (h : OneLine v) (hne : v ≠ []) : readAsCSV v = .ok (splitByte 44 v) := by
  obtain ⟨l, ls, g1, _, g3⟩ := scan_bare_split v h []
  rw [readAsCSV, if_neg hne, g1]
  cases v with
  | nil => exact absurd rfl hne
  | cons c r =>
    obtain ⟨h4, h5⟩ := csvNormal_nil_iff_plain (s := c :: r) rfl (h c (by simp)).2.1 (h c (by simp)).1
    rw [h4, ← g3]
    split
    · rename_i h; exact absurd h h5
    · rfl

omit [Ext] in
theorem splitByte_mem_sub (sep : UInt8) (v : Bytes) : ∀ l ∈ splitByte sep v, ∀ c ∈ l, c ∈ v := by
  induction v with
  | nil => simp [splitByte]
  | cons x v ih =>
    intro l hl c hc
    rw [splitByte] at hl
    split at hl
    · rcases List.mem_cons.1 hl with rfl | hl
      · cases hc
      · exact List.mem_cons_of_mem _ (ih l hl c hc)
    · split at hl
      · simp at hl; subst hl; simp at hc; simp [hc]
      · rename_i l0 ls hs
        rcases List.mem_cons.1 hl with rfl | hl
        · rcases List.mem_cons.1 hc with rfl | hc
          · simp
          · exact List.mem_cons_of_mem _ (ih l0 (by rw [hs]; simp) c hc)
        · exact List.mem_cons_of_mem _ (ih l (by rw [hs]; simp [hl]) c hc)

omit [Ext] in
theorem splitByte_ne (sep : UInt8) (v : Bytes) : splitByte sep v ≠ [] := by
  cases v with
  | nil => simp [splitByte]
  | cons x v =>
    rw [splitByte]
    split
    · simp
    · split <;> simp

omit [Ext] in
theorem splitByte_empty (sep : UInt8) (v : Bytes) (h : splitByte sep v = [[]]) : v = [] := by
  cases v with
  | nil => rfl
  | cons x v =>
    rw [splitByte] at h
    split at h
    · injection h with _ h
      exact absurd h (splitByte_ne sep v)
    · split at h <;> simp at h

/-- Values of `-e` without double quotes and line ends are expressions, cut at every comma. -/
theorem C68_commas_split (occ : List Bytes) (a : EditArgs) (h : ∀ v ∈ occ, OneLine v ∧ v ≠ []) :
    editCommand occ a = runEdit { a with expressions := occ.flatMap (splitByte 44) } := by
  rw [C68_accepted occ _ a (setStringSlice_all occ _ fun v hv => readAsCSV_oneLine v (h v hv).1 (h v hv).2)]
  rw [if_neg]
  · rw [show (occ.flatMap (splitByte 44)).map unCRLF = occ.flatMap (splitByte 44) from ?_]
    refine (List.map_congr_left (g := id) ?_).trans (List.map_id _)
    intro l hl
    obtain ⟨v, hv, hl⟩ := List.mem_flatMap.1 hl
    exact unCRLF_id l fun c hc => ((h v hv).1 c (splitByte_mem_sub 44 v l hl c hc)).2.1
  · cases occ with
    | nil => simp
    | cons v r =>
      intro he
      rw [List.flatMap_cons] at he
      rcases List.append_eq_cons_iff.1 he with ⟨e1, _⟩ | ⟨t, e1, e2⟩
      · exact splitByte_ne 44 v e1
      · have : t = [] := (List.append_eq_nil_iff.1 e2.symm).1
        subst this
        exact (h v (by simp)).2 (splitByte_empty 44 v e1)

omit [Ext] in
/-- The same for `--include` of `texted test`, which uses the stored fields directly. -/
theorem C68_include_split (occ : List Bytes) (h : ∀ v ∈ occ, OneLine v ∧ v ≠ []) :
    setStringSlice occ = .ok (occ.flatMap (splitByte 44)) :=
  setStringSlice_all occ _ fun v hv => readAsCSV_oneLine v (h v hv).1 (h v hv).2

/-- In particular: values without double quotes, commas and line ends are the expressions, one each and unchanged. -/
theorem C68_plain (occ : List Bytes) (a : EditArgs) (h : ∀ v ∈ occ, OneLine v ∧ v ≠ [] ∧ 44 ∉ v) :
    editCommand occ a = runEdit { a with expressions := occ } := by
  rw [C68_commas_split occ a fun v hv => ⟨(h v hv).1, (h v hv).2.1⟩]
  congr 2
  induction occ with
  | nil => rfl
  | cons v r ih =>
    rw [List.flatMap_cons, ih fun v hv => h v (by simp [hv]), splitByte_last 44 v fun x hx hxe => (h v (by simp)).2.2 (hxe ▸ hx)]
    rfl

omit [Ext] in
/-- Non-vacuity. -/
example : ∀ v ∈ [b! "goto-char 3", b! "search-forward foo", b! "(point)"], OneLine v ∧ v ≠ [] ∧ 44 ∉ v := by
  simp only [OneLine]; decide

/-! ### Quotes -/

omit [Ext] in
theorem csvEscape_flatMap (e : Bytes) : csvEscape e = e.flatMap fun c => if c = 34 then [34, 34] else [c] := by
  induction e with
  | nil => rfl
  | cons c r ih => rw [csvEscape, List.flatMap_cons, ← ih]; split <;> rfl

omit [Ext] in
theorem readAsCSV_quoted (e : Bytes) : readAsCSV (csvQuoted e) = .ok [unCRLF e] := by
  have h : csvQuoted e = 34 :: (csvEscape e ++ [34]) := by rw [csvQuoted, csvEscape_flatMap]; simp
  obtain ⟨h4, h5⟩ := csvNormal_nil_iff_plain h (by decide) (by decide)
  have : csvScan .start (csvNormal (csvQuoted e)) = .ok [unCRLF e] := by
    rw [h, csvNormal_cons (by decide), csvScan, if_neg (by decide), if_pos rfl, scan_quoted]
    rfl
  rw [readAsCSV, if_neg (by rw [h]; simp), h4, ← this]
  split
  · rename_i h; exact absurd h h5
  · rfl

/-- What works for every expression, with commas, quotes or several lines: passing it as a quoted CSV field. -/
theorem C68_quoted (es : List Bytes) (a : EditArgs) (h : ∀ e ∈ es, 13 ∉ e) (hne : es ≠ [[]]) :
    editCommand (es.map csvQuoted) a = runEdit { a with expressions := es } := by
  have key : ∀ es : List Bytes, (∀ e ∈ es, 13 ∉ e) → setStringSlice (es.map csvQuoted) = .ok es := by
    intro es h
    induction es with
    | nil => rfl
    | cons e r ih =>
      rw [List.map_cons, setStringSlice, readAsCSV_quoted, unCRLF_id e fun c hc hce => h e (by simp) (hce ▸ hc)]
      simp only [ih fun e he => h e (by simp [he])]
      rfl
  rw [C68_accepted _ es a (key es h), if_neg hne]
  congr 2
  refine (List.map_congr_left (g := id) ?_).trans (List.map_id _)
  exact fun e he => unCRLF_id e fun c hc hce => h e he (hce ▸ hc)

omit [Ext] in
example : csvQuoted (b! "concat \"a, b\"") = b! "\"concat \"\"a, b\"\"\"" := by decide

omit [Ext] in
theorem scan_to_quote (pre : Bytes) (h : OneLine pre) : ∀ acc (c : UInt8) post, c ≠ 44 → c ≠ 10 → c ≠ 13 → c ≠ 34 →
    csvScan (.bare acc) (csvNormal (pre ++ c :: 34 :: post)) = .error errBareQuote ∧
    csvScan .start (csvNormal (pre ++ c :: 34 :: post)) = .error errBareQuote := by
  induction pre with
  | nil =>
    intro acc c post h1 h2 h3 h4
    have h2' : c ≠ nl := h2
    simp [csvNormal_cons h3, csvNormal_cons (show (34 : UInt8) ≠ 13 by decide), csvScan, h1, h2', h4]
    decide
  | cons d pre ih =>
    intro acc c post h1 h2 h3 h4
    obtain ⟨g1, g2, g3⟩ := h d (by simp)
    have g1' : d ≠ nl := g1
    have := ih (fun c hc => h c (by simp [hc]))
    rw [List.cons_append, csvNormal_cons g2, csvScan, csvScan, if_neg g1', if_neg g3, if_neg g1', if_neg g3]
    split
    · rw [(this acc c post h1 h2 h3 h4).2]; exact ⟨rfl, rfl⟩
    · exact ⟨(this _ c post h1 h2 h3 h4).1, (this _ c post h1 h2 h3 h4).1⟩

omit [Ext] in
theorem readAsCSV_bare_quote (pre post : Bytes) (c : UInt8) (h : OneLine (pre ++ [c])) (hc : c ≠ 44) :
    readAsCSV (pre ++ c :: 34 :: post) = .error errBareQuote := by
  obtain ⟨h1, h2, h3⟩ := h c (by simp)
  have key := (scan_to_quote pre (fun c hc => h c (by simp [hc])) [] c post hc h1 h2 h3).2
  have hd : ∃ d r, pre ++ c :: 34 :: post = d :: r ∧ d ≠ 13 ∧ d ≠ 10 := by
    cases pre with
    | nil => exact ⟨c, _, rfl, h2, h1⟩
    | cons d pre => exact ⟨d, _, rfl, (h d (by simp)).2.1, (h d (by simp)).1⟩
  obtain ⟨d, r, g1, g2, g3⟩ := hd
  obtain ⟨h4, h5⟩ := csvNormal_nil_iff_plain g1 g2 g3
  rw [readAsCSV, if_neg (by rw [g1]; simp), h4, ← key]
  split
  · rename_i h; exact absurd h h5
  · rfl

omit [Ext] in
theorem setStringSlice_error (occ : List Bytes) (v e : Bytes) (hv : v ∈ occ) (h : readAsCSV v = .error e) :
    ∃ w e', setStringSlice occ = .error (w, e') ∧ w ∈ occ ∧ readAsCSV w = .error e' := by
  induction occ with
  | nil => cases hv
  | cons w r ih =>
    rw [setStringSlice]
    cases hw : readAsCSV w with
    | error e' => exact ⟨w, e', rfl, by simp, hw⟩
    | ok l =>
      rcases List.mem_cons.1 hv with rfl | hv
      · rw [h] at hw; cases hw
      · obtain ⟨w', e', h1, h2, h3⟩ := ih hv
        exact ⟨w', e', by simp only [h1], by simp [h2], h3⟩

/-- FINDING: an expression with a string literal in it is refused, whatever the syntax: if the first double quote of some
value of `-e` comes neither at its start nor right after a comma, the command fails before it looks at any file. -/
theorem C68_string_literals_refused (occ : List Bytes) (a : EditArgs) (pre post : Bytes) (c : UInt8) (h : OneLine (pre ++ [c])) (hc : c ≠ 44)
    (hv : pre ++ c :: 34 :: post ∈ occ) : ∃ e, editCommand occ a = .ret (some e) := by
  obtain ⟨w, e', h1, _, _⟩ := setStringSlice_error occ _ _ hv (readAsCSV_bare_quote pre post c h hc)
  exact ⟨_, by rw [editCommand, h1]⟩

/-- The message for a single such value. -/
theorem C68_refusal_message (a : EditArgs) (pre post : Bytes) (c : UInt8) (h : OneLine (pre ++ [c])) (hc : c ≠ 44) :
    editCommand [pre ++ c :: 34 :: post] a = .ret (some (b! "invalid argument " ++ quote (pre ++ c :: 34 :: post) ++
      b! " for \"-e, --expression\" flag: bare \" in non-quoted field")) := by
  rw [editCommand, setStringSlice, readAsCSV_bare_quote pre post c h hc]
  show Proc.ret _ = _
  have : quote (b! "-e, --expression") = b! "\"-e, --expression\"" := rfl
  simp [invalidArgument, this, errBareQuote]

/-! ### Line ends -/

omit [Ext] in
theorem scan_line (l rest : Bytes) (h : OneLine l) : ∀ acc,
    csvScan (.bare acc) (csvNormal (l ++ 10 :: rest)) = csvScan (.bare acc) (csvNormal l) ∧
    csvScan .start (csvNormal (l ++ 10 :: rest)) = csvScan .start (csvNormal l) := by
  induction l with
  | nil => intro acc; rw [List.nil_append, csvNormal_cons (by decide)]; exact ⟨rfl, rfl⟩
  | cons d l ih =>
    intro acc
    obtain ⟨g1, g2, g3⟩ := h d (by simp)
    have := ih (fun c hc => h c (by simp [hc]))
    rw [List.cons_append, csvNormal_cons g2, csvNormal_cons g2, csvScan, csvScan, csvScan, csvScan]
    simp only [(this (acc ++ [d])).1, (this [d]).1, (this []).2, if_neg g3, true_and]

/-- FINDING: of a value with several lines only the first is used, the others are ignored without notice. -/
theorem C68_only_first_line (l rest : Bytes) (a : EditArgs) (h : OneLine l) (hne : l ≠ []) :
    editCommand [l ++ 10 :: rest] a = editCommand [l] a := by
  have : readAsCSV (l ++ 10 :: rest) = readAsCSV l := by
    rw [readAsCSV, readAsCSV, if_neg (by simp), if_neg hne]
    cases l with
    | nil => exact absurd rfl hne
    | cons c r =>
      obtain ⟨h4, h5⟩ := csvNormal_nil_iff_plain (s := c :: r) rfl (h c (by simp)).2.1 (h c (by simp)).1
      obtain ⟨h6, h7⟩ := csvNormal_nil_iff_plain (s := c :: r ++ 10 :: rest) rfl (h c (by simp)).2.1 (h c (by simp)).1
      rw [h4, h6]
      have := (scan_line (c :: r) rest h []).2
      split
      · rename_i h; exact absurd h h7
      · exact this
  have e : setStringSlice [l ++ 10 :: rest] = setStringSlice [l] := by simp only [setStringSlice, this, readAsCSV_oneLine l h hne]
  rw [editCommand, editCommand, e]

omit [Ext] in
/-- The README's own examples (/repo/README.md:51 and 137) are among the refused ones, although the expressions are fine. -/
theorem C68_false_readme : letI := litExt
    (∀ a, ∃ e, editCommand [b! "upcase \"hello\"", b! "downcase \"WORLD\""] a = .ret (some e)) ∧
    (∃ p b, parseString (b! "upcase \"hello\"") = .ok p ∧ eval defaultEnv p (newBuffer []) = (.ok (.str (b! "HELLO")), b)) ∧
    (∀ a, ∃ e, editCommand [b! "(insert \"x\")"] a = .ret (some e)) ∧
    (∀ a, ∃ e, editCommand [b! "[\"insert\", \"x\"]"] a = .ret (some e)) := by
  letI := litExt
  refine ⟨fun a => ?_, ⟨[.list [.sym (b! "upcase"), .str (b! "hello")]], newBuffer [], by decide +kernel, by decide +kernel⟩, fun a => ?_, fun a => ?_⟩
  · exact C68_string_literals_refused _ a (b! "upcase") (b! "hello\"") 32 (by simp only [OneLine]; decide) (by decide) (by decide)
  · exact C68_string_literals_refused _ a (b! "(insert") (b! "x\")") 32 (by simp only [OneLine]; decide) (by decide) (by decide)
  · exact C68_string_literals_refused _ a [] (b! "insert\", \"x\"]") 91 (by simp only [OneLine]; decide) (by decide) (by decide)

omit [Ext] in
/-- Non-vacuity: the same expressions in quotes arrive. -/
example (a : EditArgs) : letI := litExt
    editCommand [b! "\"upcase \"\"hello\"\"\"", b! "\"downcase \"\"WORLD\"\"\""] a =
      runEdit { a with expressions := [b! "upcase \"hello\"", b! "downcase \"WORLD\""] } := by
  letI := litExt
  exact C68_quoted [b! "upcase \"hello\"", b! "downcase \"WORLD\""] a (by decide) (by decide)

/-- FINDING: an empty value, plain or quoted, counts as no `-e` at all: the command goes on to `--script`. -/
theorem C68_empty (a : EditArgs) : editCommand [[]] a = runEdit { a with expressions := [] } ∧
    editCommand [b! "\"\""] a = runEdit { a with expressions := [] } :=
  ⟨rfl, rfl⟩

end Texted
