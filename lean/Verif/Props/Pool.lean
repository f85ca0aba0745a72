import Verif.Props.Files
import Verif.Spec.Pool
import Verif.Model.Tools
/-
C57: concurrent edits.
-/
namespace Texted
open Spec

variable {α : Type}

/-- All actions of the program are on files in `S`. -/
def Touches (S : Bytes → Prop) : Proc α → Prop
  | .ret _ => True
  | .panic => True
  | .act a k => (match a with | .read p => S p | .write p _ => S p | .print _ => False | .stdin => False) ∧ ∀ r, Touches S (k r)

/-- The same for a program in the middle of its execution. -/
def RunTouches (S : Bytes → Prop) : Run α → Prop
  | .at p => Touches S p
  | .writing p _ _ k => S p ∧ ∀ r, Touches S (k r)

theorem Touches.bind {β : Type} {S : Bytes → Prop} {p : Proc α} {f : α → Proc β} (h : Touches S p) (hf : ∀ a, Touches S (f a)) : Touches S (p.bind f) := by
  induction p with
  | ret a => exact hf a
  | panic => trivial
  | act a k ih => exact ⟨h.1, fun r => ih r (h.2 r)⟩

theorem Touches.mono {S T : Bytes → Prop} {p : Proc α} (h : Touches S p) (hST : ∀ q, S q → T q) : Touches T p := by
  induction p with
  | ret a => trivial
  | panic => trivial
  | act a k ih =>
    refine ⟨?_, fun r => ih r (h.2 r)⟩
    have := h.1
    cases a with
    | read p => exact hST _ this
    | write p d => exact hST _ this
    | print => exact this
    | stdin => exact this

theorem agree_put {S : Bytes → Prop} {w v : World} (h : AgreeOn S w v) (p d : Bytes) : AgreeOn S (w.put p d) (v.put p d) := by
  intro q hq
  simp only [World.put]
  split
  · rfl
  · exact h q hq

/-- A step depends only on the files the program touches, and changes no others. -/
theorem step_local {S : Bytes → Prop} {r r' : Run α} {w w' : World} (hs : Step (r, w) (r', w')) (ht : RunTouches S r) (v : World)
    (hv : AgreeOn S w v) :
    RunTouches S r' ∧ (∀ q, ¬ S q → w'.files q = w.files q) ∧ w'.input = w.input ∧ w'.out = w.out ∧
      ∃ v', Step (r, v) (r', v') ∧ AgreeOn S w' v' ∧ (∀ q, ¬ S q → v'.files q = v.files q) ∧ v'.input = v.input ∧ v'.out = v.out := by
  have hput : ∀ (u : World) (p d : Bytes), S p → ∀ q, ¬ S q → (u.put p d).files q = u.files q := by
    intro u p d hp q hq
    exact World.put_other _ _ _ _ (fun h => hq (h ▸ hp))
  cases hs with
  | readOk h => exact ⟨ht.2 _, fun _ _ => rfl, rfl, rfl, v, .readOk ((hv _ ht.1).trans h), hv, fun _ _ => rfl, rfl, rfl⟩
  | readErr => exact ⟨ht.2 _, fun _ _ => rfl, rfl, rfl, v, .readErr, hv, fun _ _ => rfl, rfl, rfl⟩
  | stdinOk => exact ht.1.elim
  | stdinErr => exact ht.1.elim
  | printOk => exact ht.1.elim
  | printErr => exact ht.1.elim
  | openErr => exact ⟨ht.2 _, fun _ _ => rfl, rfl, rfl, v, .openErr, hv, fun _ _ => rfl, rfl, rfl⟩
  | «open» => exact ⟨⟨ht.1, ht.2⟩, hput _ _ _ ht.1, rfl, rfl, _, .open, agree_put hv _ _, hput _ _ _ ht.1, rfl, rfl⟩
  | piece h1 h2 =>
    refine ⟨⟨ht.1, ht.2⟩, hput _ _ _ ht.1, rfl, rfl, _, .piece h1 h2, ?_, hput _ _ _ ht.1, rfl, rfl⟩
    rw [hv _ ht.1]
    exact agree_put hv _ _
  | writeErr => exact ⟨ht.2 _, fun _ _ => rfl, rfl, rfl, v, .writeErr, hv, fun _ _ => rfl, rfl, rfl⟩
  | close => exact ⟨ht.2 _, fun _ _ => rfl, rfl, rfl, v, .close, hv, fun _ _ => rfl, rfl, rfl⟩

theorem steps_local {S : Bytes → Prop} {c c' : Run α × World} (hs : Steps c c') : RunTouches S c.1 → ∀ (v : World), AgreeOn S c.2 v →
    (∀ q, ¬ S q → c'.2.files q = c.2.files q) ∧ c'.2.input = c.2.input ∧ c'.2.out = c.2.out ∧
      ∃ v', Steps (c.1, v) (c'.1, v') ∧ AgreeOn S c'.2 v' ∧ (∀ q, ¬ S q → v'.files q = v.files q) ∧ v'.input = v.input ∧ v'.out = v.out := by
  induction hs with
  | refl => intro _ v hv; exact ⟨fun _ _ => rfl, rfl, rfl, v, .refl, hv, fun _ _ => rfl, rfl, rfl⟩
  | step s t ih =>
    intro ht v hv
    obtain ⟨h1, h2, h3, h4, v1, h5, h6, h7, h8, h9⟩ := step_local s ht v hv
    obtain ⟨k2, k3, k4, v', k5, k6, k7, k8, k9⟩ := ih h1 v1 h6
    exact ⟨fun q hq => (k2 q hq).trans (h2 q hq), k3.trans h3, k4.trans h4, v', .step h5 k5, k6, fun q hq => (k7 q hq).trans (h7 q hq), k8.trans h8, k9.trans h9⟩

/-- The state of a pool whose members touch different files: every member is where it could be if it had run alone. -/
def Alone (S : Nat → Bytes → Prop) (ps : List (Proc α)) (w : World) (rs : List (Run α)) (w' : World) : Prop :=
  rs.length = ps.length ∧
  (∀ i p r, ps[i]? = some p → rs[i]? = some r → RunTouches (S i) r ∧ ∃ wi, Steps (.at p, w) (r, wi) ∧ AgreeOn (S i) w' wi) ∧
  (∀ q, (∀ i, i < ps.length → ¬ S i q) → w'.files q = w.files q) ∧ w'.input = w.input ∧ w'.out = w.out

theorem alone_step {S : Nat → Bytes → Prop} (hd : ∀ i j q, i ≠ j → S i q → ¬ S j q) {ps : List (Proc α)} {w : World}
    {rs rs' : List (Run α)} {w1 w2 : World} (h : Alone S ps w rs w1) (hs : PoolStep (rs, w1) (rs', w2)) : Alone S ps w rs' w2 := by
  obtain ⟨hl, hm, ho, hin, hout⟩ := h
  cases hs with
  | @one _ _ i r r' _ hi s =>
    have hlt : i < rs.length := by
      have := List.getElem?_eq_some_iff.1 hi
      exact this.1
    have hp : ∃ p, ps[i]? = some p := ⟨ps[i]'(by omega), List.getElem?_eq_getElem (by omega)⟩
    obtain ⟨p, hp⟩ := hp
    obtain ⟨ht, wi, h1, h2⟩ := hm i p r hp hi
    obtain ⟨k1, k2, k3, k4, v', k5, k6, _⟩ := step_local s ht wi h2
    refine ⟨by simp [hl], ?_, ?_, k3.trans hin, k4.trans hout⟩
    · intro j pj rj hpj hrj
      by_cases hij : i = j
      · subst hij
        rw [List.getElem?_set_self hlt] at hrj
        cases hrj
        rw [hp] at hpj; cases hpj
        exact ⟨k1, v', h1.trans (.one k5), k6⟩
      · rw [List.getElem?_set_ne hij] at hrj
        obtain ⟨g1, wj, g2, g3⟩ := hm j pj rj hpj hrj
        refine ⟨g1, wj, g2, fun q hq => ?_⟩
        rw [k2 q (fun h => hd i j q hij h hq)]
        exact g3 q hq
    · intro q hq
      rw [k2 q (hq i (by omega))]
      exact ho q hq

theorem alone_steps {S : Nat → Bytes → Prop} (hd : ∀ i j q, i ≠ j → S i q → ¬ S j q) {ps : List (Proc α)} {w : World}
    {c c' : List (Run α) × World} (hs : PoolSteps c c') : Alone S ps w c.1 c.2 → Alone S ps w c'.1 c'.2 := by
  induction hs with
  | refl => exact id
  | step s _ ih => intro h; exact ih (alone_step hd h s)

theorem alone_start (S : Nat → Bytes → Prop) (ps : List (Proc α)) (hS : ∀ i p, ps[i]? = some p → Touches (S i) p) (w : World) :
    Alone S ps w (ps.map .at) w := by
  refine ⟨by simp, ?_, fun _ _ => rfl, rfl, rfl⟩
  intro i p r hp hr
  rw [List.getElem?_map, hp] at hr
  cases hr
  exact ⟨hS i p hp, w, .refl, fun _ _ => rfl⟩

/-- Running one after the other what ends alone. -/
theorem inTurn_of_alone (ps : List (Proc α)) : ∀ (S : Nat → Bytes → Prop), (∀ i j q, i ≠ j → S i q → ¬ S j q) →
    (∀ i p, ps[i]? = some p → Touches (S i) p) → ∀ (as : List α) (w w' v : World), as.length = ps.length →
    (∀ i p a, ps[i]? = some p → as[i]? = some a → ∃ wi, Ends p w a wi ∧ AgreeOn (S i) w' wi) →
    (∀ q, (∀ i, i < ps.length → ¬ S i q) → w'.files q = v.files q) → (∀ i, i < ps.length → AgreeOn (S i) w v) →
    w'.input = v.input → w'.out = v.out → InTurn ps v as w' := by
  induction ps with
  | nil =>
    intro S _ _ as w w' v hl _ ho _ hi hout
    have : as = [] := List.length_eq_zero_iff.1 hl
    subst this
    have : w' = v := world_ext (funext fun q => ho q (fun i h => absurd h (Nat.not_lt_zero _))) hi hout
    subst this
    exact .nil _
  | cons p ps ih =>
    intro S hd hS as w w' v hl hm ho hag hi hout
    cases as with
    | nil => simp at hl
    | cons a as =>
      obtain ⟨w0, h1, h2⟩ := hm 0 p a rfl rfl
      obtain ⟨_, _, _, v1, k5, k6, k7, k8, k9⟩ := steps_local h1 (hS 0 p rfl) v (hag 0 (Nat.succ_pos _))
      refine .cons (w1 := v1) k5 ?_
      refine ih (fun i => S (i + 1)) (fun i j q hij => hd (i + 1) (j + 1) q (by omega)) (fun i p' h => hS (i + 1) p' (by simpa using h)) as w w' v1
        (by simpa using hl) (fun i p' a' hp ha => hm (i + 1) p' a' (by simpa using hp) (by simpa using ha)) ?_ ?_ (hi.trans k8.symm) (hout.trans k9.symm)
      · intro q hq
        by_cases h0 : S 0 q
        · rw [k6 q h0, h2 q h0]
        · rw [k7 q h0]
          refine ho q fun i hlt => ?_
          cases i with
          | zero => exact h0
          | succ i => exact hq i (by simpa using hlt)
      · intro i hlt q hq
        rw [k7 q (fun h => hd 0 (i + 1) q (by omega) h hq)]
        exact hag (i + 1) (by simpa using hlt) q hq

/-! ### The edit operations -/

theorem touches_editFileBy (exec : Bytes → Res Bytes Bytes) (f : Bytes) : Touches (· = f) (editFileBy exec f) := by
  refine ⟨rfl, fun r => ?_⟩
  cases r with
  | error e => trivial
  | ok c =>
    simp only
    cases exec c with
    | err m => trivial
    | panic => trivial
    | ok t => refine ⟨rfl, fun r => ?_⟩; cases r <;> trivial

theorem touches_editFilesBy (exec : Bytes → Res Bytes Bytes) (fs : List Bytes) : Touches (· ∈ fs) (editFilesBy (editFileBy exec) fs) := by
  induction fs with
  | nil => trivial
  | cons f fs ih =>
    refine ((touches_editFileBy exec f).mono fun q hq => hq ▸ List.mem_cons_self).bind fun e => ?_
    exact (ih.mono fun q hq => List.mem_cons_of_mem _ hq).bind fun rs => trivial

/-- Some edit requests: files and script. -/
abbrev Requests := List (List Bytes × Bytes)

/-- The calls of `EditFiles` for the requests. -/
def calls [Ext] (reqs : Requests) : List (Proc (List EditResult)) := reqs.map fun r => editFiles r.1 r.2

/-- No file is named in two of the requests. -/
def DisjointRequests (reqs : Requests) : Prop :=
  ∀ (i j : Nat) (x y : List Bytes × Bytes), i ≠ j → reqs[i]? = some x → reqs[j]? = some y → ∀ f ∈ x.1, f ∉ y.1

/-- The files of request `i`. -/
def filesOf (reqs : Requests) (i : Nat) (q : Bytes) : Prop := ∃ x, reqs[i]? = some x ∧ q ∈ x.1

theorem filesOf_disjoint {reqs : Requests} (h : DisjointRequests reqs) : ∀ i j q, i ≠ j → filesOf reqs i q → ¬ filesOf reqs j q := by
  rintro i j q hij ⟨x, hx, hqx⟩ ⟨y, hy, hqy⟩
  exact h i j x y hij hx hy q hqx hqy

theorem filesOf_touches [Ext] (reqs : Requests) : ∀ i p, (calls reqs)[i]? = some p → Touches (filesOf reqs i) p := by
  intro i p hp
  rw [calls, List.getElem?_map] at hp
  cases hx : reqs[i]? with
  | none => rw [hx] at hp; cases hp
  | some x =>
    rw [hx] at hp
    cases hp
    exact (touches_editFilesBy _ x.1).mono fun q hq => ⟨x, hx, hq⟩

/-- C57. Any number of edit requests on different files run at the same time, in any interleaving of their file operations and with any
failures: at every moment each request is where it could be if it had been running alone, and its files look as they could look then. -/
theorem C57_as_if_alone [Ext] (reqs : Requests) (hd : DisjointRequests reqs) (w w' : World) (rs : List (Run (List EditResult)))
    (h : PoolSteps ((calls reqs).map .at, w) (rs, w')) :
    rs.length = reqs.length ∧
    (∀ (i : Nat) (x : List Bytes × Bytes) r, reqs[i]? = some x → rs[i]? = some r →
      ∃ wi, Steps (.at (editFiles x.1 x.2), w) (r, wi) ∧ ∀ f ∈ x.1, w'.files f = wi.files f) ∧
    (∀ q, (∀ x ∈ reqs, q ∉ x.1) → w'.files q = w.files q) := by
  obtain ⟨h1, h2, h3, _⟩ := alone_steps (filesOf_disjoint hd) h (alone_start (filesOf reqs) (calls reqs) (filesOf_touches reqs) w)
  refine ⟨h1.trans (by simp [calls]), ?_, ?_⟩
  · intro i x r hx hr
    obtain ⟨_, wi, h4, h5⟩ := h2 i (editFiles x.1 x.2) r (by rw [calls, List.getElem?_map, hx]; rfl) hr
    exact ⟨wi, h4, fun f hf => (h5 f ⟨x, hx, hf⟩).symm⟩
  · intro q hq
    refine h3 q fun i _ => ?_
    rintro ⟨x, hx, hqx⟩
    exact hq x (List.mem_of_getElem? hx) hqx

/-- C57. When all of them have ended, the results and the files are those of running the requests one after the other. -/
theorem C57_like_one_after_the_other [Ext] (reqs : Requests) (hd : DisjointRequests reqs) (w w' : World) (results : List (List EditResult))
    (h : AllEnd (calls reqs) w results w') : InTurn (calls reqs) w results w' := by
  obtain ⟨h1, h2, h3, h4, h5⟩ := alone_steps (filesOf_disjoint hd) h (alone_start (filesOf reqs) (calls reqs) (filesOf_touches reqs) w)
  refine inTurn_of_alone (calls reqs) (filesOf reqs) (filesOf_disjoint hd) (filesOf_touches reqs) results w w' w (by simpa using h1) ?_ h3 ?_ h4 h5
  · intro i p a hp ha
    obtain ⟨_, wi, h6, h7⟩ := h2 i p (.at (.ret a)) hp (by rw [List.getElem?_map, ha]; rfl)
    exact ⟨wi, h6, h7⟩
  · intro i _ q _; rfl

/-! The same for the edit_file tool. -/

theorem touches_editFilesWithLoop [Ext] (fs : List Bytes) (script : Bytes) (n : Nat) : ∀ i, Touches (· ∈ fs) (editFilesWithLoop fs script n i) := by
  induction n with
  | zero => intro i; trivial
  | succ n ih =>
    intro i
    refine (touches_editFilesBy _ fs).bind fun rs => ?_
    split
    · trivial
    · exact ih _

/-- The files an edit_file request names. -/
def EditFileRequest.names (req : EditFileRequest) (q : Bytes) : Prop := ∃ fs, req.files = .ok fs ∧ q ∈ fs

theorem touches_editFileHandler [Ext] (fuel : Nat) (req : EditFileRequest) : Touches req.names (editFileHandler fuel req) := by
  unfold editFileHandler
  split
  · trivial
  · split
    · trivial
    · rename_i fs hfs
      have hsub : ∀ q, q ∈ fs → req.names q := fun q hq => ⟨fs, hfs, hq⟩
      split
      · trivial
      · split
        · refine ((touches_editFilesWithLoop fs _ fuel 0).mono hsub).bind fun r => ?_
          split <;> trivial
        · exact ((touches_editFilesBy _ fs).mono hsub).bind fun r => trivial

/-- C57 for concurrent edit_file requests (with or without loopUntilError): at every moment each request is where it could be if it had
been running alone, and its files look as they could look then; when all have answered, answers and files are those of serving the
requests one after the other. -/
theorem C57_edit_file_requests [Ext] (fuel : Nat) (reqs : List EditFileRequest)
    (hd : ∀ (i j : Nat) (x y : EditFileRequest), i ≠ j → reqs[i]? = some x → reqs[j]? = some y → ∀ f, x.names f → ¬ y.names f) (w w' : World) :
    (∀ rs : List (Run (Option ToolResult)), PoolSteps (reqs.map fun r => .at (editFileHandler fuel r), w) (rs, w') →
      ∀ (i : Nat) x r, reqs[i]? = some x → rs[i]? = some r →
        ∃ wi, Steps (.at (editFileHandler fuel x), w) (r, wi) ∧ ∀ f, x.names f → w'.files f = wi.files f) ∧
    (∀ answers : List (Option ToolResult), AllEnd (reqs.map (editFileHandler fuel)) w answers w' →
      InTurn (reqs.map (editFileHandler fuel)) w answers w') := by
  let S : Nat → Bytes → Prop := fun i q => ∃ x, reqs[i]? = some x ∧ x.names q
  have hdis : ∀ i j q, i ≠ j → S i q → ¬ S j q := by
    rintro i j q hij ⟨x, hx, hqx⟩ ⟨y, hy, hqy⟩
    exact hd i j x y hij hx hy q hqx hqy
  have htou : ∀ i p, (reqs.map (editFileHandler fuel))[i]? = some p → Touches (S i) p := by
    intro i p hp
    rw [List.getElem?_map] at hp
    cases hx : reqs[i]? with
    | none => rw [hx] at hp; cases hp
    | some x => rw [hx] at hp; cases hp; exact (touches_editFileHandler fuel x).mono fun q hq => ⟨x, hx, hq⟩
  constructor
  · intro rs h i x r hx hr
    have h' : PoolSteps ((reqs.map (editFileHandler fuel)).map .at, w) (rs, w') := by rw [List.map_map]; exact h
    obtain ⟨_, h2, _⟩ := alone_steps hdis h' (alone_start S _ htou w)
    obtain ⟨_, wi, h4, h5⟩ := h2 i (editFileHandler fuel x) r (by rw [List.getElem?_map, hx]; rfl) hr
    exact ⟨wi, h4, fun f hf => (h5 f ⟨x, hx, hf⟩).symm⟩
  · intro answers h
    obtain ⟨h1, h2, h3, h4, h5⟩ := alone_steps hdis h (alone_start S _ htou w)
    refine inTurn_of_alone _ S hdis htou answers w w' w (by simpa using h1) ?_ h3 (fun i _ q _ => rfl) h4 h5
    intro i p a hp ha
    obtain ⟨_, wi, h6, h7⟩ := h2 i p (.at (.ret a)) hp (by rw [List.getElem?_map, ha]; rfl)
    exact ⟨wi, h6, h7⟩

/-! ### The same file -/

theorem pool_left {a b : Run α} {r2 : Run α} {w w' : World} (h : Steps (a, w) (b, w')) : PoolSteps ([a, r2], w) ([b, r2], w') := by
  generalize hc : (a, w) = c at h
  generalize hc' : (b, w') = c' at h
  induction h generalizing a w with
  | refl => subst hc; cases hc'; exact .refl
  | step s t ih =>
    subst hc
    rename_i d _
    obtain ⟨r, w1⟩ := d
    exact .step (.one (i := 0) rfl s) (ih rfl hc')

theorem pool_right {a b : Run α} {r1 : Run α} {w w' : World} (h : Steps (a, w) (b, w')) : PoolSteps ([r1, a], w) ([r1, b], w') := by
  generalize hc : (a, w) = c at h
  generalize hc' : (b, w') = c' at h
  induction h generalizing a w with
  | refl => subst hc; cases hc'; exact .refl
  | step s t ih =>
    subst hc
    rename_i d _
    obtain ⟨r, w1⟩ := d
    exact .step (.one (i := 1) rfl s) (ih rfl hc')

theorem PoolSteps.trans {a b c : List (Run α) × World} (h1 : PoolSteps a b) (h2 : PoolSteps b c) : PoolSteps a c := by
  induction h1 with
  | refl => exact h2
  | step s _ ih => exact .step s (ih h2)

/-- What follows the reading in `EditFile`. -/
theorem editFile_read [Ext] (f script c t : Bytes) (w : World) (hc : w.files f = some c) (hx : executeScript c script = .ok t) :
    Steps (.at (editFile f script), w) (.at (.act (.write f t) fun r =>
        match r with
        | .error e => .ret (some (b! "failed to write file " ++ f ++ b! ": " ++ e))
        | .ok _ => .ret none), w) := by
  refine .one ?_
  have := @Step.readOk (Option Bytes) f c (fun r =>
    match r with
    | .error e => .ret (some (b! "failed to read file " ++ f ++ b! ": " ++ e))
    | .ok content =>
      match executeScript content script with
      | .err e => .ret (some e)
      | .panic => .panic
      | .ok modified => .act (.write f modified) fun r =>
        match r with
        | .error e => .ret (some (b! "failed to write file " ++ f ++ b! ": " ++ e))
        | .ok _ => .ret none) w hc
  simp only [hx] at this
  exact this

/-- C57, negative result: two edits of the same file can both report success although only one of them is in the file at the end. -/
theorem C57_lost_update [Ext] (f s1 s2 c t1 t2 : Bytes) (w : World) (hc : w.files f = some c)
    (h1 : executeScript c s1 = .ok t1) (h2 : executeScript c s2 = .ok t2) :
    AllEnd [editFile f s1, editFile f s2] w [none, none] (w.put f t2) := by
  unfold AllEnd
  simp only [List.map_cons, List.map_nil]
  refine (pool_left (editFile_read f s1 c t1 w hc h1)).trans ((pool_right (editFile_read f s2 c t2 w hc h2)).trans ?_)
  refine (pool_left (act_steps (a := .write f t1) (r := .ok []) (w1 := w.put f t1) (Or.inl ⟨rfl, rfl⟩))).trans ?_
  have := pool_right (r1 := .at (.ret none)) (act_steps (a := .write f t2) (k := fun r =>
        match r with
        | .error e => Proc.ret (some (b! "failed to write file " ++ f ++ b! ": " ++ e))
        | .ok _ => .ret none) (w := w.put f t1) (r := .ok []) (w1 := (w.put f t1).put f t2) (Or.inl ⟨rfl, rfl⟩))
  rw [World.put_put] at this
  exact this

/-- C57, negative result: it can even end with a text that neither script produced: the output of the one followed by the rest of the
output of the other. -/
theorem C57_mixed_text [Ext] (f s1 s2 c t1 t2 : Bytes) (w : World) (hc : w.files f = some c)
    (h1 : executeScript c s1 = .ok t1) (h2 : executeScript c s2 = .ok t2) (hne : t2 ≠ []) (hlt : t2.length < t1.length) :
    AllEnd [editFile f s1, editFile f s2] w [none, none] (w.put f (t2 ++ t1.drop t2.length)) := by
  unfold AllEnd
  simp only [List.map_cons, List.map_nil]
  refine (pool_left (editFile_read f s1 c t1 w hc h1)).trans ((pool_right (editFile_read f s2 c t2 w hc h2)).trans ?_)
  generalize hk : (fun r : Except Bytes Bytes =>
        match r with
        | .error e => Proc.ret (some (b! "failed to write file " ++ f ++ b! ": " ++ e))
        | .ok _ => .ret none) = k
  have hk' : k (.ok []) = .ret none := by rw [← hk]
  have p2 : 0 < t2.length := List.length_pos_iff.2 hne
  -- both open the file
  refine (pool_left (.one .open)).trans ((pool_right (.one .open)).trans ?_)
  -- the first writes everything
  have w1 : Steps (.writing f t1 0 k, (w.put f []).put f []) (.writing f t1 t1.length k, w.put f t1) := by
    have := @Step.piece (Option Bytes) f t1 0 t1.length k ((w.put f []).put f []) (by omega) (by omega)
    have he : writeAt ((((w.put f []).put f []).files f).getD []) 0 ((t1.take t1.length).drop 0) = t1 := by
      rw [World.put_same]; simp [writeAt]
    rw [he, World.put_put, World.put_put] at this
    rw [World.put_put]
    exact .one this
  refine (pool_left w1).trans ?_
  -- the second writes over it
  have w2 : Steps (.writing f t2 0 k, w.put f t1) (.writing f t2 t2.length k, w.put f (t2 ++ t1.drop t2.length)) := by
    have := @Step.piece (Option Bytes) f t2 0 t2.length k (w.put f t1) (by omega) (by omega)
    have he : writeAt (((w.put f t1).files f).getD []) 0 ((t2.take t2.length).drop 0) = t2 ++ t1.drop t2.length := by
      rw [World.put_same]; simp [writeAt]
    rw [he, World.put_put] at this
    exact .one this
  refine (pool_right w2).trans ?_
  rw [← hk']
  exact (pool_left (.one .close)).trans (pool_right (.one .close))

/-! ### The hypotheses are met -/

example : DisjointRequests [([b! "a", b! "b"], b! "point"), ([b! "c"], b! "insert \"x\"")] := by
  intro i j x y hij hx hy f hf
  match i, j with
  | 0, 0 => exact absurd rfl hij
  | 0, 1 => cases hx; cases hy; revert hf; simp only [List.mem_cons, List.not_mem_nil, or_false]; rintro (rfl | rfl) <;> decide
  | 1, 0 => cases hx; cases hy; revert hf; simp only [List.mem_cons, List.not_mem_nil, or_false]; rintro rfl; decide
  | 1, 1 => exact absurd rfl hij
  | 0, j + 2 => cases hy
  | 1, j + 2 => cases hy
  | i + 2, _ => cases hx
example : letI := litExt; executeScript (b! "ab") (b! "insert \"xy\"") = .ok (b! "xyab") ∧ executeScript (b! "ab") (b! "delete-char 1") = .ok (b! "b") := by
  decide +kernel

end Texted
