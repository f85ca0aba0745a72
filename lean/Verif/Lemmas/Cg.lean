import Verif.Model.CgRun
import Verif.Props.CommandLine
/-
What is in the variables behind the options when a command line has been read.
-/
namespace Texted
open Spec

/-- What the settings make of the value of the option `n`. -/
def CgVal.after (n : Bytes) : CgVal → Bool → List (FlagDef × Bytes) → CgVal
  | v, _, [] => v
  | v, c, (d, x) :: rest =>
    if d.name = n then
      match v with
      | .str _ => CgVal.after n (.str x) c rest
      | .bool t => CgVal.after n (.bool ((parseBool x).getD t)) c rest
      | .strs l₀ => CgVal.after n (.strs (if c then l₀ ++ (readAsCSV x).toOption.getD [] else (readAsCSV x).toOption.getD [])) true rest
    else CgVal.after n v c rest

theorem after_str (n : Bytes) : ∀ (l : List (FlagDef × Bytes)) (s : Bytes) (c : Bool), CgVal.after n (.str s) c l = .str (strSetting l n s)
  | [], _, _ => rfl
  | (d, x) :: rest, s, c => by
    rw [CgVal.after]
    by_cases h : d.name = n
    · rw [if_pos h]; simp only [after_str n rest, strSetting, List.foldl_cons, h, if_true]
    · rw [if_neg h]; simp only [after_str n rest, strSetting, List.foldl_cons, h, if_false]

theorem after_bool (n : Bytes) : ∀ (l : List (FlagDef × Bytes)) (t : Bool) (c : Bool),
    CgVal.after n (.bool t) c l = .bool (l.foldl (fun acc s => if s.1.name = n then (parseBool s.2).getD acc else acc) t)
  | [], _, _ => rfl
  | (d, x) :: rest, s, c => by
    rw [CgVal.after]
    by_cases h : d.name = n
    · rw [if_pos h]; simp only [after_bool n rest, List.foldl_cons, h, if_true]
    · rw [if_neg h]; simp only [after_bool n rest, List.foldl_cons, h, if_false]

theorem after_strs (n : Bytes) : ∀ (l : List (FlagDef × Bytes)) (l₀ fs : List Bytes) (c : Bool), Strings n l fs → (c = false → l₀ = []) →
    CgVal.after n (.strs l₀) c l = .strs (l₀ ++ fs)
  | _, l₀, _, _, .nil, _ => by rw [CgVal.after, List.append_nil]
  | _, l₀, _, c, .other h hs, hc => by
    rw [CgVal.after, if_neg h]; exact after_strs n _ _ _ _ hs hc
  | _, l₀, _, c, .given h hv hs, hc => by
    rw [CgVal.after, if_pos h]
    rw [(readAsCSV_iff _ _).2 hv]
    cases c with
    | false => rw [hc rfl]; exact after_strs n _ _ _ true hs (fun e => Bool.noConfusion e)
    | true =>
      rw [if_pos rfl, after_strs n _ _ _ true hs (fun e => Bool.noConfusion e)]
      exact congrArg _ (List.append_assoc ..)

/-- A state of options with distinct names and variables, whose values are of the kind of the option. -/
structure Sound (st : CgState) : Prop where
  names : ∀ f ∈ st.flags, ∀ g ∈ st.flags, f.defn.name = g.defn.name → f = g
  cells : ∀ f ∈ st.flags, ∀ g ∈ st.flags, f.cell = g.cell → f = g
  kinds : ∀ f ∈ st.flags, (st.cells f.cell).kind = f.defn.kind

theorem find_flag {st : CgState} (h : Sound st) {f : CgFlag} (hf : f ∈ st.flags) : st.flags.find? (fun g => g.defn.name = f.defn.name) = some f := by
  cases e : st.flags.find? (fun g => g.defn.name = f.defn.name) with
  | none => exact absurd (List.find?_eq_none.1 e f hf) (by simp)
  | some g =>
    have := List.find?_some e
    rw [h.names g (List.mem_of_find?_eq_some e) f hf (by simpa using this)]

/-- Setting one option. -/
theorem set_one {st : CgState} (h : Sound st) {f : CgFlag} (hf : f ∈ st.flags) (x : Bytes) (hx : Accepts f.defn x) (l : List (FlagDef × Bytes)) :
    ∃ st', st.set f x = some st' ∧ st'.flags = st.flags ∧ Sound st' ∧
      ∀ g ∈ st.flags, CgVal.after g.defn.name (st'.cells g.cell) (st'.changed g.defn.name) l =
        CgVal.after g.defn.name (st.cells g.cell) (st.changed g.defn.name) ((f.defn, x) :: l) := by
  have hk := h.kinds f hf
  have other : ∀ g ∈ st.flags, g ≠ f → g.cell ≠ f.cell ∧ f.defn.name ≠ g.defn.name :=
    fun g hg hn => ⟨fun e => hn (h.cells g hg f hf e), fun e => hn (h.names g hg f hf e.symm)⟩
  have sound : ∀ (v : CgVal) (ch : Bytes → Bool), v.kind = f.defn.kind → Sound { st.put f.cell v with changed := ch } := by
    intro v ch hv
    refine ⟨h.names, h.cells, fun g hg => ?_⟩
    show (if g.cell = f.cell then v else st.cells g.cell).kind = _
    split
    · rename_i e; rw [hv, h.cells g hg f hf e]
    · exact h.kinds g hg
  cases hkind : f.defn.kind with
  | str =>
    refine ⟨st.put f.cell (.str x), by rw [CgState.set, hkind], rfl, sound _ _ hkind.symm, fun g hg => ?_⟩
    by_cases e : g = f
    · subst e
      rw [hkind] at hk
      show CgVal.after _ (if g.cell = g.cell then _ else _) _ _ = _
      cases hc : st.cells g.cell with
      | str s => rw [if_pos rfl, CgVal.after, if_pos rfl]; rfl
      | bool _ => rw [hc] at hk; exact nomatch hk
      | strs _ => rw [hc] at hk; exact nomatch hk
    · obtain ⟨h1, h2⟩ := other g hg e
      show CgVal.after _ (if g.cell = f.cell then _ else _) _ _ = _
      rw [if_neg h1, CgVal.after.eq_def _ _ _ (_ :: _)]
      simp only [if_neg h2]; rfl
  | bool =>
    unfold Accepts at hx; rw [hkind] at hx
    obtain ⟨t, ht⟩ : ∃ t, parseBool x = some t := by
      rcases hx with hx | hx
      · exact ⟨true, (by decide : ∀ v ∈ trueWords, parseBool v = some true) x hx⟩
      · exact ⟨false, (by decide : ∀ v ∈ falseWords, parseBool v = some false) x hx⟩
    refine ⟨st.put f.cell (.bool t), by rw [CgState.set, hkind]; simp only [ht], rfl, sound _ _ hkind.symm, fun g hg => ?_⟩
    by_cases e : g = f
    · subst e
      rw [hkind] at hk
      show CgVal.after _ (if g.cell = g.cell then _ else _) _ _ = _
      cases hc : st.cells g.cell with
      | bool s => rw [if_pos rfl, CgVal.after, if_pos rfl, ht]; rfl
      | str _ => rw [hc] at hk; exact nomatch hk
      | strs _ => rw [hc] at hk; exact nomatch hk
    · obtain ⟨h1, h2⟩ := other g hg e
      show CgVal.after _ (if g.cell = f.cell then _ else _) _ _ = _
      rw [if_neg h1, CgVal.after.eq_def _ _ _ (_ :: _)]
      simp only [if_neg h2]; rfl
  | slice =>
    unfold Accepts at hx; rw [hkind] at hx
    obtain ⟨fs, hx⟩ := hx
    rw [← readAsCSV_iff] at hx
    rw [hkind] at hk
    cases hc : st.cells f.cell with
    | bool _ => rw [hc] at hk; exact nomatch hk
    | str _ => rw [hc] at hk; exact nomatch hk
    | strs l₀ =>
      refine ⟨{ st.put f.cell (.strs (if st.changed f.defn.name then l₀ ++ fs else fs)) with
          changed := fun n => if n = f.defn.name then true else st.changed n }, by rw [CgState.set, hkind]; simp only [hx, hc], rfl, sound _ _ hkind.symm, fun g hg => ?_⟩
      by_cases e : g = f
      · subst e
        show CgVal.after _ (if g.cell = g.cell then _ else _) (if g.defn.name = g.defn.name then _ else _) _ = _
        rw [if_pos rfl, if_pos rfl, hc, CgVal.after.eq_def _ _ _ (_ :: _)]
        simp only [if_true, hx]; rfl
      · obtain ⟨h1, h2⟩ := other g hg e
        show CgVal.after _ (if g.cell = f.cell then _ else _) (if g.defn.name = f.defn.name then _ else _) _ = _
        rw [if_neg h1, if_neg (Ne.symm h2), CgVal.after.eq_def _ _ _ (_ :: _)]
        simp only [if_neg h2]

/-- Settings that the options accept can be made, and every variable has what they make of it. -/
theorem setAll_after : ∀ (l : List (FlagDef × Bytes)) (st : CgState), Sound st → (∀ s ∈ l, s.1 ∈ st.flags.map (·.defn) ∧ Accepts s.1 s.2) →
    ∃ st', st.setAll l = some st' ∧ st'.flags = st.flags ∧
      ∀ g ∈ st.flags, st'.cells g.cell = CgVal.after g.defn.name (st.cells g.cell) (st.changed g.defn.name) l
  | [], st, _, _ => ⟨st, rfl, rfl, fun _ _ => rfl⟩
  | (d, x) :: rest, st, h, hl => by
    obtain ⟨h1, h2⟩ := hl (d, x) (by simp)
    obtain ⟨f, hf, hd⟩ := List.mem_map.1 h1
    simp only at hd h2
    subst hd
    obtain ⟨st', e, hfl, hs, ha⟩ := set_one h hf x h2 rest
    obtain ⟨st'', e', hfl', ha'⟩ := setAll_after rest st' hs fun s hs => hfl ▸ hl s (by simp [hs])
    refine ⟨st'', ?_, hfl'.trans hfl, fun g hg => ?_⟩
    · rw [CgState.setAll, find_flag h hf]; simp only [e, e']
    · rw [ha' g (hfl ▸ hg), ha g hg]

variable [Ext]

/-- What comes of a command whose registrations do not panic. -/
theorem start_ready {c : CgCommand} {st : CgState} (hr : c.ready = some st) (hs : Sound st) {defs : List FlagDef} (hd : st.flags.map (·.defn) = defs)
    (hg : GoodTable defs) (words : List Bytes) :
    (∀ e, parseWords defs words = .error e → c.start words = .refused e) ∧
    (∀ l operands, parseWords defs words = .ok (l, operands) → ∃ st', st'.flags = st.flags ∧ st.setAll l = some st' ∧
      (∀ s ∈ l, s.1 ∈ defs ∧ Accepts s.1 s.2) ∧
      (∀ g ∈ st.flags, st'.cells g.cell = CgVal.after g.defn.name (st.cells g.cell) (st.changed g.defn.name) l) ∧
      (∀ g ∈ st.flags, st'.lookup g.defn.name = some (st'.cells g.cell)) ∧
      c.start words = if st'.lookup (b! "help") = some (.bool true) then .help else .call c.calls (c.passes.map (st'.args operands))) := by
  constructor
  · intro e he; rw [CgCommand.start, hr]; simp only [hd, he]
  · intro l operands he
    have fits := commandLine_fits ((parseWords_iff hg words l operands).1 he)
    obtain ⟨st', e, hf, ha⟩ := setAll_after l st hs (hd ▸ fits)
    refine ⟨st', hf, e, fits, ha, fun g hg => ?_, ?_⟩
    · rw [CgState.lookup, hf, find_flag hs hg]; rfl
    · rw [CgCommand.start, hr]; simp only [hd, he, e]

end Texted
