import Verif.Spec.Links
import Verif.Props.Pool
import Verif.Props.Everyday
/-
C86: names that lead to the same file.
-/
namespace Texted
open Spec

variable {α β : Type}

/-! ### Programs through names -/

theorem through_bind (file : Naming) (p : Proc α) (f : α → Proc β) : (p.bind f).through file = (p.through file).bind fun a => (f a).through file := by
  induction p with
  | ret a => rfl
  | panic => rfl
  | act a k ih => simp only [Proc.bind, Proc.through, ih]

theorem through_say (file : Naming) (c : Bool) (t : Bytes) (p : Proc α) : (say c t p).through file = say c t (p.through file) := by
  unfold say; split <;> rfl

/-- Every name the program uses is in `S`. -/
def Mentions (S : Bytes → Prop) : Proc α → Prop
  | .ret _ => True
  | .panic => True
  | .act a k => (match a with | .read p => S p | .write p _ => S p | _ => True) ∧ ∀ r, Mentions S (k r)

theorem Mentions.bind {S : Bytes → Prop} {p : Proc α} {f : α → Proc β} (h : Mentions S p) (hf : ∀ a, Mentions S (f a)) :
    Mentions S (p.bind f) := by
  induction p with
  | ret a => exact hf a
  | panic => trivial
  | act a k ih => exact ⟨h.1, fun r => ih r (h.2 r)⟩

theorem Mentions.say {S : Bytes → Prop} {c : Bool} {t : Bytes} {p : Proc α} (h : Mentions S p) : Mentions S (say c t p) := by
  unfold Texted.say; split
  · exact ⟨trivial, fun _ => h⟩
  · exact h

/-- `w` shows the files of `v` under the names in `S`. -/
def Shows (file : Naming) (S : Bytes → Prop) (v w : World) : Prop :=
  (∀ q, S q → w.files q = v.files (file q)) ∧ w.input = v.input ∧ w.out = v.out

theorem shows_seen (file : Naming) (S : Bytes → Prop) (v : World) : Shows file S v (seen file v) := ⟨fun _ _ => rfl, rfl, rfl⟩

theorem shows_put {file : Naming} {S : Bytes → Prop} (hi : Apart file S) {v w : World} (h : Shows file S v w) {p : Bytes} (hp : S p) (d : Bytes) :
    Shows file S (v.put (file p) d) (w.put p d) := by
  refine ⟨fun q hq => ?_, h.2⟩
  by_cases hqp : q = p
  · subst hqp; rw [World.put_same, World.put_same]
  · rw [World.put_other _ _ _ _ hqp, World.put_other _ _ _ _ (fun e => hqp (hi q p hq hp e))]
    exact h.1 q hq

/-- Files that no name in `S` leads to. -/
def Elsewhere (file : Naming) (S : Bytes → Prop) (n : Bytes) : Prop := ∀ q, S q → file q ≠ n

theorem actEnds_through {file : Naming} {S : Bytes → Prop} (hi : Apart file S) {a : Act} (ha : match a with | .read p => S p | .write p _ => S p | _ => True)
    {v v' w : World} {r : Except Bytes Bytes} (hs : Shows file S v w) (h : ActEnds (a.through file) v r v') :
    ∃ w', ActEnds a w r w' ∧ Shows file S v' w' ∧ ∀ n, Elsewhere file S n → v'.files n = v.files n := by
  cases a with
  | read p =>
    obtain ⟨rfl, h⟩ := h
    exact ⟨w, ⟨rfl, by rw [hs.1 p ha]; exact h⟩, hs, fun _ _ => rfl⟩
  | stdin =>
    obtain ⟨rfl, h⟩ := h
    exact ⟨_, ⟨rfl, by rw [hs.2.1]; exact h⟩, ⟨hs.1, rfl, hs.2.2⟩, fun _ _ => rfl⟩
  | print d =>
    rcases h with ⟨rfl, rfl⟩ | ⟨n, e, rfl, rfl⟩
    · exact ⟨_, .inl ⟨rfl, rfl⟩, ⟨hs.1, hs.2.1, by simp [hs.2.2]⟩, fun _ _ => rfl⟩
    · exact ⟨_, .inr ⟨n, e, rfl, rfl⟩, ⟨hs.1, hs.2.1, by simp [hs.2.2]⟩, fun _ _ => rfl⟩
  | write p d =>
    have hq : ∀ (d : Bytes) n, Elsewhere file S n → (v.put (file p) d).files n = v.files n :=
      fun d n hn => World.put_other _ _ _ _ (fun e => hn p ha e.symm)
    rcases h with ⟨rfl, rfl⟩ | ⟨e, rfl, rfl | ⟨n, hn, rfl⟩⟩
    · exact ⟨_, .inl ⟨rfl, rfl⟩, shows_put hi hs ha d, hq d⟩
    · exact ⟨w, .inr ⟨e, rfl, .inl rfl⟩, hs, fun _ _ => rfl⟩
    · exact ⟨_, .inr ⟨e, rfl, .inr ⟨n, hn, rfl⟩⟩, shows_put hi hs ha _, hq _⟩

/-- If the names lead to different files, a run through the names is a run on files by name. -/
theorem ends_through {file : Naming} {S : Bytes → Prop} (hi : Apart file S) {p : Proc α} (hp : Mentions S p) {v v' w : World} {b : α}
    (hs : Shows file S v w) (h : Ends (p.through file) v b v') :
    ∃ w', Ends p w b w' ∧ Shows file S v' w' ∧ ∀ n, Elsewhere file S n → v'.files n = v.files n := by
  induction p generalizing v w with
  | ret a => obtain ⟨rfl, rfl⟩ := ends_ret.1 h; exact ⟨w, ends_ret.2 ⟨rfl, rfl⟩, hs, fun _ _ => rfl⟩
  | panic => exact absurd h ends_panic
  | act a k ih =>
    obtain ⟨r, v1, h1, h2⟩ := ends_act.1 h
    obtain ⟨w1, h3, h4, h5⟩ := actEnds_through hi hp.1 hs h1
    obtain ⟨w', h6, h7, h8⟩ := ih r (hp.2 r) h4 h2
    exact ⟨w', ends_act.2 ⟨r, w1, h3, h6⟩, h7, fun n hn => (h8 n hn).trans (h5 n hn)⟩

@[inherit_doc ends_through]
theorem sees_through {file : Naming} {S : Bytes → Prop} (hi : Apart file S) {p : Proc α} (hp : Mentions S p) {v v' w : World}
    (hs : Shows file S v w) (h : Sees (p.through file) v v') :
    ∃ w', Sees p w w' ∧ Shows file S v' w' ∧ ∀ n, Elsewhere file S n → v'.files n = v.files n := by
  induction p generalizing v w with
  | ret a => rw [sees_ret.1 h]; exact ⟨w, sees_ret.2 rfl, hs, fun _ _ => rfl⟩
  | panic => rw [sees_panic.1 h]; exact ⟨w, sees_panic.2 rfl, hs, fun _ _ => rfl⟩
  | act a k ih =>
    rcases sees_act.1 h with (rfl | h) | ⟨r, v1, h1, h2⟩
    · exact ⟨w, sees_act.2 (.inl (.inl rfl)), hs, fun _ _ => rfl⟩
    · cases a with
      | write p d =>
        obtain ⟨n, hn, rfl⟩ := h
        exact ⟨_, sees_act.2 (.inl (.inr ⟨n, hn, rfl⟩)), shows_put hi hs hp.1 _,
          fun m hm => World.put_other _ _ _ _ (fun e => hm p hp.1 e.symm)⟩
      | read => exact h.elim
      | print => exact h.elim
      | stdin => exact h.elim
    · obtain ⟨w1, h3, h4, h5⟩ := actEnds_through hi hp.1 hs h1
      obtain ⟨w', h6, h7, h8⟩ := ih r (hp.2 r) h4 h2
      exact ⟨w', sees_act.2 (.inr ⟨r, w1, h3, h6⟩), h7, fun n hn => (h8 n hn).trans (h5 n hn)⟩

theorem WritesOnly.through {S : Bytes → Prop} {p : Proc α} (h : WritesOnly S p) (file : Naming) :
    WritesOnly (fun n => ∃ q, S q ∧ n = file q) (p.through file) := by
  induction p with
  | ret a => trivial
  | panic => trivial
  | act a k ih =>
    refine ⟨?_, fun r => ih r (h.2 r)⟩
    cases a with
    | write p d => exact ⟨p, h.1, rfl⟩
    | read => trivial
    | print => trivial
    | stdin => trivial

theorem Touches.through {S : Bytes → Prop} {p : Proc α} (h : Touches S p) (file : Naming) :
    Touches (fun n => ∃ q, S q ∧ n = file q) (p.through file) := by
  induction p with
  | ret a => trivial
  | panic => trivial
  | act a k ih =>
    refine ⟨?_, fun r => ih r (h.2 r)⟩
    have := h.1
    cases a with
    | write p d => exact ⟨p, this, rfl⟩
    | read p => exact ⟨p, this, rfl⟩
    | print => exact this
    | stdin => exact this

/-! ### Library: `EditFile` and `EditFiles` -/

theorem editFileBy_through (file : Naming) (exec : Bytes → Res Bytes Bytes) (f : Bytes) (w : World) (e : Option Bytes) (w' : World) :
    Ends ((editFileBy exec f).through file) w e w' ↔ EditOutcome exec f (w.files (file f)) e (w'.files (file f)) ∧ SameExcept (file f) w w' := by
  have hsame : ∀ {v : World}, Shows file (· = f) v (seen file v) := shows_seen file _ _
  have hm : Mentions (· = f) (editFileBy exec f) := by
    refine ⟨rfl, fun r => ?_⟩
    cases r with
    | error e => trivial
    | ok c =>
      simp only
      cases exec c with
      | err m => trivial
      | panic => trivial
      | ok t => refine ⟨rfl, fun r => ?_⟩; cases r <;> trivial
  have hap : Apart file (· = f) := fun p q hp hq _ => hp.trans hq.symm
  constructor
  · intro h
    obtain ⟨u, h1, ⟨h2, h2i, h2o⟩, h3⟩ := ends_through hap hm hsame h
    obtain ⟨h4, h5, h6, h7⟩ := (editFileBy_ends exec f (seen file w) e u).1 h1
    rw [h2 f rfl] at h4
    refine ⟨h4, fun q hq => h3 q fun p hp e => hq (by rw [← e, hp]), ?_, ?_⟩
    · rw [← h2i, h6]; rfl
    · rw [← h2o, h7]; rfl
  · rintro ⟨h, hs⟩
    unfold editFileBy
    simp only [Proc.through, Act.through]
    rw [ends_act]
    generalize hb : w.files (file f) = before at h
    generalize ha : w'.files (file f) = after at h
    cases h with
    | unreadable c m =>
      have := sameExcept_same hs (by rw [hb, ha]); subst this
      exact ⟨_, _, ⟨rfl, Or.inr ⟨m, rfl⟩⟩, ends_ret.2 ⟨rfl, rfl⟩⟩
    | failed c m hx =>
      have := sameExcept_same hs (by rw [hb, ha]); subst this
      exact ⟨_, _, ⟨rfl, Or.inl ⟨c, hb, rfl⟩⟩, by simp only [hx, Proc.through]; exact ends_ret.2 ⟨rfl, rfl⟩⟩
    | edited c t hx =>
      have := sameExcept_eq hs ha; subst this
      refine ⟨_, _, ⟨rfl, Or.inl ⟨c, hb, rfl⟩⟩, ?_⟩
      simp only [hx, Proc.through, Act.through]
      exact ends_act.2 ⟨_, _, Or.inl ⟨rfl, rfl⟩, ends_ret.2 ⟨rfl, rfl⟩⟩
    | unwritable c t m hx =>
      have := sameExcept_same hs (by rw [hb, ha]); subst this
      refine ⟨_, _, ⟨rfl, Or.inl ⟨c, hb, rfl⟩⟩, ?_⟩
      simp only [hx, Proc.through, Act.through]
      exact ends_act.2 ⟨_, _, Or.inr ⟨m, rfl, Or.inl rfl⟩, ends_ret.2 ⟨rfl, rfl⟩⟩
    | cut c t m n hx hn =>
      have := sameExcept_eq hs ha; subst this
      refine ⟨_, _, ⟨rfl, Or.inl ⟨c, hb, rfl⟩⟩, ?_⟩
      simp only [hx, Proc.through, Act.through]
      exact ends_act.2 ⟨_, _, Or.inr ⟨m, rfl, Or.inr ⟨n, hn, rfl⟩⟩, ends_ret.2 ⟨rfl, rfl⟩⟩

/-- C86. `EditFile` with any name, wherever it leads: the outcomes are those of the file the name leads to, and no other file changes; the
messages carry the name that was given. -/
theorem C86_one_file [Ext] (file : Naming) (f script : Bytes) (w : World) (e : Option Bytes) (w' : World) :
    Ends ((editFile f script).through file) w e w' ↔
      EditOutcome (fun c => executeScript c script) f (w.files (file f)) e (w'.files (file f)) ∧ SameExcept (file f) w w' :=
  editFileBy_through file _ f w e w'

/-- C86. `EditFiles` with any names, wherever they lead: all ways to return are those of editing the files one after the other, each with
the contents it has then. -/
theorem C86_one_by_one [Ext] (file : Naming) (fs : List Bytes) (script : Bytes) (w : World) (rs : List EditResult) (w' : World) :
    Ends ((editFiles fs script).through file) w rs w' ↔
      OneByOne file (fun c => executeScript c script) fs w (rs.map fun r => (r.filename, r.error)) w' := by
  unfold editFiles
  induction fs generalizing w rs with
  | nil =>
    constructor
    · intro h
      obtain ⟨rfl, rfl⟩ := ends_ret.1 h
      exact .nil _
    · intro h
      cases rs with
      | nil => cases h; exact ends_ret.2 ⟨rfl, rfl⟩
      | cons r rs => cases h
  | cons f fs ih =>
    simp only [editFilesBy, through_bind]
    rw [ends_bind]
    constructor
    · rintro ⟨e, w1, h1, h2⟩
      obtain ⟨rs', w2, h3, h4⟩ := ends_bind.1 h2
      obtain ⟨rfl, rfl⟩ := ends_ret.1 h4
      obtain ⟨h5, h6⟩ := (C86_one_file file f script w e w1).1 h1
      exact .cons h5 h6 ((ih w1 rs').1 h3)
    · intro h
      cases rs with
      | nil => cases h
      | cons r rs =>
        obtain ⟨n, e⟩ := r
        generalize hr : (List.map (fun r : EditResult => (r.filename, r.error)) (⟨n, e⟩ :: rs)) = l at h
        cases h with
        | cons h1 h2 h3 =>
          rw [List.map_cons, List.cons.injEq] at hr
          obtain ⟨hr1, hr2⟩ := hr
          have hf1 := (Prod.mk.inj hr1).1.symm
          have hf2 := (Prod.mk.inj hr1).2
          dsimp only at hf1 hf2
          subst hf1 hf2
          rw [← hr2] at h3
          exact ⟨e, _, (C86_one_file file f script w e _).2 ⟨h1, h2⟩, ends_bind.2 ⟨rs, w', (ih _ rs).2 h3, ends_ret.2 ⟨rfl, rfl⟩⟩⟩

/-- C86. If the names lead to different files, `EditFiles` treats each file as if it were alone, as for different names (C30). -/
theorem C86_independent [Ext] (file : Naming) (fs : List Bytes) (hnd : (fs.map file).Nodup) (script : Bytes) (w : World) (rs : List EditResult)
    (w' : World) (h : Ends ((editFiles fs script).through file) w rs w') :
    rs.map (·.filename) = fs ∧
    (∀ r ∈ rs, EditOutcome (fun c => executeScript c script) r.filename (w.files (file r.filename)) r.error (w'.files (file r.filename))) ∧
    (∀ n, (∀ f ∈ fs, n ≠ file f) → w'.files n = w.files n) ∧ w'.input = w.input ∧ w'.out = w.out := by
  replace h := (C86_one_by_one file fs script w rs w').1 h
  induction fs generalizing w rs with
  | nil =>
    cases rs with
    | nil => cases h; exact ⟨rfl, by simp, fun _ _ => rfl, rfl, rfl⟩
    | cons r rs => cases h
  | cons f fs ih =>
    cases rs with
    | nil => cases h
    | cons r rs =>
      obtain ⟨n, e⟩ := r
      generalize hr : (List.map (fun r : EditResult => (r.filename, r.error)) (⟨n, e⟩ :: rs)) = l at h
      cases h with
      | @cons _ _ _ w1 _ _ _ h1 h2 h3 =>
        rw [List.map_cons, List.cons.injEq] at hr
        obtain ⟨hr1, hr2⟩ := hr
        have hf1 := (Prod.mk.inj hr1).1.symm
        have hf2 := (Prod.mk.inj hr1).2
        dsimp only at hf1 hf2
        subst hf1 hf2
        rw [← hr2] at h3
        rw [List.map_cons, List.nodup_cons] at hnd
        obtain ⟨i1, i2, i3, i4, i5⟩ := ih hnd.2 w1 rs h3
        have hf : w'.files (file f) = w1.files (file f) := i3 _ fun g hg e => hnd.1 (by rw [e]; exact List.mem_map_of_mem hg)
        refine ⟨by simp [i1], ?_, ?_, i4.trans h2.2.1, i5.trans h2.2.2⟩
        · intro r hr
          rcases List.mem_cons.1 hr with rfl | hr
          · rw [hf]; exact h1
          · have hmem : r.filename ∈ fs := i1 ▸ List.mem_map_of_mem hr
            rw [← h2.1 (file r.filename) (fun e => hnd.1 (by rw [← e]; exact List.mem_map_of_mem hmem))]
            exact i2 r hr
        · intro n hn
          rw [i3 n fun g hg => hn g (List.mem_cons_of_mem _ hg), h2.1 n (hn f List.mem_cons_self)]

/-- C86. If all the names lead to one file and every result is a success, the script was applied as often as there are names, each time to the
output of the time before. -/
theorem C86_same_file [Ext] (file : Naming) (fs : List Bytes) (n : Bytes) (hn : ∀ f ∈ fs, file f = n) (script : Bytes) (w : World)
    (rs : List EditResult) (w' : World) (h : Ends ((editFiles fs script).through file) w rs w') (hok : ∀ r ∈ rs, r.success = true) (hne : fs ≠ []) :
    ∃ c t, w.files n = some c ∧ Applied (fun c => executeScript c script) fs.length c t ∧ w'.files n = some t := by
  replace h := (C86_one_by_one file fs script w rs w').1 h
  have key : ∀ (fs : List Bytes) (w : World) (rs : List EditResult), (∀ f ∈ fs, file f = n) → (∀ r ∈ rs, r.success = true) →
      OneByOne file (fun c => executeScript c script) fs w (rs.map fun r => (r.filename, r.error)) w' → ∀ c, w.files n = some c →
      ∃ t, Applied (fun c => executeScript c script) fs.length c t ∧ w'.files n = some t := by
    intro fs
    induction fs with
    | nil =>
      intro w rs _ _ h c hc
      cases rs with
      | nil => cases h; exact ⟨c, .zero c, hc⟩
      | cons r rs => cases h
    | cons f fs ih =>
      intro w rs hn hok h c hc
      cases rs with
      | nil => cases h
      | cons r rs =>
        obtain ⟨m, e⟩ := r
        generalize hr : (List.map (fun r : EditResult => (r.filename, r.error)) (⟨m, e⟩ :: rs)) = l at h
        cases h with
        | @cons _ _ _ w1 _ _ _ h1 h2 h3 =>
          rw [List.map_cons, List.cons.injEq] at hr
          obtain ⟨hr1, hr2⟩ := hr
          have hf1 := (Prod.mk.inj hr1).1.symm
          have hf2 := (Prod.mk.inj hr1).2
          dsimp only at hf1 hf2
          subst hf1 hf2
          rw [← hr2] at h3
          have he : e = none := by
            have := hok ⟨f, e⟩ List.mem_cons_self
            cases e with
            | none => rfl
            | some x => cases this
          subst he
          rw [hn f List.mem_cons_self, hc] at h1
          generalize ha : w1.files n = after at h1
          cases h1 with
          | edited c t hx =>
            obtain ⟨u, h4, h5⟩ := ih w1 rs (fun g hg => hn g (List.mem_cons_of_mem _ hg)) (fun r hr => hok r (List.mem_cons_of_mem _ hr)) h3 t ha
            exact ⟨u, .succ hx h4, h5⟩
  cases fs with
  | nil => exact absurd rfl hne
  | cons f fs =>
    suffices hc : ∃ c, w.files n = some c by
      obtain ⟨c, hc⟩ := hc
      obtain ⟨t, h1, h2⟩ := key (f :: fs) w rs hn hok h c hc
      exact ⟨c, t, hc, h1, h2⟩
    cases rs with
    | nil => cases h
    | cons r rs =>
      obtain ⟨m, e⟩ := r
      generalize hr : (List.map (fun r : EditResult => (r.filename, r.error)) (⟨m, e⟩ :: rs)) = l at h
      cases h with
      | @cons _ _ _ w1 _ _ _ h1 h2 h3 =>
        rw [List.map_cons, List.cons.injEq] at hr
        obtain ⟨hr1, hr2⟩ := hr
        have hf1 := (Prod.mk.inj hr1).1.symm
        have hf2 := (Prod.mk.inj hr1).2
        dsimp only at hf1 hf2
        subst hf1 hf2
        have he : e = none := by
          have := hok ⟨f, e⟩ List.mem_cons_self
          cases e with
          | none => rfl
          | some x => cases this
        subst he
        rw [hn f List.mem_cons_self] at h1
        generalize hb : w.files n = before at h1
        generalize ha : w1.files n = after at h1
        cases h1 with
        | edited c t hx => exact ⟨c, rfl⟩

/-! ### The edit command -/

/-- C86. With --dry-run no file is changed at any moment, whatever the names lead to. -/
theorem C86_dry_run [Ext] (file : Naming) (a : EditArgs) (h : a.dryRun = true) (w w' : World) (hs : Sees ((runEdit a).through file) w w') :
    w'.files = w.files :=
  funext fun n => (WritesOnly.through (writes_runEdit a) file).sees hs n fun ⟨q, hq, _⟩ => by
    have := hq.1; rw [h] at this; cases this

/-- C86. Without --in-place, no file but the one the name of --output leads to is changed at any moment. -/
theorem C86_only_output [Ext] (file : Naming) (a : EditArgs) (h : a.inPlace = false) (w w' : World)
    (hs : Sees ((runEdit a).through file) w w') (n : Bytes) (hn : a.outputFile = [] ∨ n ≠ file a.outputFile) : w'.files n = w.files n :=
  (WritesOnly.through (writes_runEdit a) file).sees hs n fun ⟨q, hq, e⟩ => by
    have := hq.2.2
    rw [if_neg (by rw [h]; simp)] at this
    rcases hn with hn | hn
    · exact this.1 hn
    · exact hn (by rw [e, this.2])

/-- C86. With --in-place only the files the names and the names of the backups lead to are changed, at any moment. -/
theorem C86_in_place_scope [Ext] (file : Naming) (a : EditArgs) (h : a.inPlace = true) (w w' : World)
    (hs : Sees ((runEdit a).through file) w w') (n : Bytes) (hn : ∀ q, InPlaceName a q → n ≠ file q) : w'.files n = w.files n :=
  (WritesOnly.through (writes_runEdit a) file).sees hs n fun ⟨q, hq, e⟩ => by
    have := hq.2.2
    rw [if_pos h] at this
    obtain ⟨f, hf, h1 | ⟨h1, h2⟩⟩ := this
    · exact hn q (.inl (h1 ▸ hf)) e
    · exact hn q (.inr ⟨h1, f, hf, h2⟩) e

theorem mentions_complain {S : Bytes → Prop} (a : EditArgs) (t : Bytes) : Mentions S (complain a t) := Mentions.say trivial

theorem mentions_inPlaceEdit [Ext] {S : Bytes → Prop} (a : EditArgs) (script f : Bytes) (hf : S f) : Mentions S (inPlaceEdit a script f) := by
  refine ⟨hf, fun r => ?_⟩
  cases r with
  | error e => exact mentions_complain _ _
  | ok c =>
    simp only
    split
    · trivial
    · exact mentions_complain _ _
    · refine ⟨hf, fun r => ?_⟩
      cases r with
      | error e => exact mentions_complain _ _
      | ok c => exact Mentions.say trivial

theorem mentions_inPlaceOne [Ext] {S : Bytes → Prop} (a : EditArgs) (script f : Bytes) (hf : S f)
    (hb : a.backupSuffix ≠ [] → S (f ++ a.backupSuffix)) : Mentions S (inPlaceOne a script f) := by
  unfold inPlaceOne
  refine Mentions.say ?_
  split
  · exact Mentions.say (Mentions.say (Mentions.say trivial))
  · split
    · rename_i hs
      refine Mentions.say ⟨hf, fun r => ?_⟩
      cases r with
      | error e => exact mentions_complain _ _
      | ok c =>
        refine ⟨hb hs, fun r => ?_⟩
        cases r with
        | error e => exact mentions_complain _ _
        | ok _ => exact mentions_inPlaceEdit a script f hf
    · exact mentions_inPlaceEdit a script f hf

theorem mentions_inPlaceLoop [Ext] {S : Bytes → Prop} (a : EditArgs) (script : Bytes) (fs : List Bytes)
    (h : ∀ f ∈ fs, S f ∧ (a.backupSuffix ≠ [] → S (f ++ a.backupSuffix))) : Mentions S (inPlaceLoop a script fs) := by
  induction fs with
  | nil => trivial
  | cons f fs ih =>
    have hf := h f List.mem_cons_self
    exact Mentions.bind (mentions_inPlaceOne a script f hf.1 hf.2) fun bad =>
      Mentions.bind (ih fun g hg => h g (List.mem_cons_of_mem _ hg)) fun _ => trivial

theorem mentions_all [Ext] (a : EditArgs) (script : Bytes) : Mentions (InPlaceName a) (inPlaceLoop a script a.files) :=
  mentions_inPlaceLoop a script a.files fun f hf => ⟨.inl hf, fun hs => .inr ⟨hs, f, hf, rfl⟩⟩

/-- What remains of the command when it edits in place. -/
theorem inPlace_form [Ext] (a : EditArgs) (hi : a.inPlace = true) (he : a.expressions = []) (hf : a.files ≠ []) (hc : ¬ Contradictory a) :
    runEdit a = runScript a ∧ ∀ script, applyScript a script = processFilesInPlace a script := by
  have ho : a.outputFile = [] := Classical.byContradiction fun ho => hc (Or.inr (Or.inr (Or.inr ⟨ho, hi⟩)))
  refine ⟨runEdit_consistent a hc he, fun script => ?_⟩
  unfold applyScript
  rw [if_neg (by simpa using hf)]
  unfold processFiles
  split
  · rw [if_neg (fun hh => hh ho), if_pos hi]
  · rw [if_neg (by rw [hi]; simp)]

theorem through_runScript_ends [Ext] (file : Naming) (a : EditArgs) (w w' : World) (r : Option Bytes)
    (h : Ends ((runScript a).through file) w r w') :
    (w' = w ∧ ∃ e, r = some e) ∨ ∃ script, ScriptOf a (seen file w) script ∧ Ends ((applyScript a script).through file) w r w' := by
  unfold runScript at h
  unfold ScriptOf
  split at h
  · rename_i hs
    obtain ⟨r', w1, ⟨rfl, ⟨d, hd, rfl⟩ | ⟨e, rfl⟩⟩, h2⟩ := ends_act.1 h
    · exact Or.inr ⟨d, by rw [if_neg hs]; exact hd, h2⟩
    · obtain ⟨rfl, rfl⟩ := ends_ret.1 h2; exact Or.inl ⟨rfl, _, rfl⟩
  · rename_i hs
    split at h
    · obtain ⟨rfl, rfl⟩ := ends_ret.1 h; exact Or.inl ⟨rfl, _, rfl⟩
    · rename_i h0
      exact Or.inr ⟨a.script, by rw [if_pos (Classical.byContradiction hs)]; exact ⟨rfl, h0⟩, h⟩

theorem through_runScript_sees [Ext] (file : Naming) (a : EditArgs) (w w' : World) (h : Sees ((runScript a).through file) w w') :
    w' = w ∨ ∃ script, ScriptOf a (seen file w) script ∧ Sees ((applyScript a script).through file) w w' := by
  unfold runScript at h
  unfold ScriptOf
  split at h
  · rename_i hs
    rcases sees_act.1 h with (rfl | h) | ⟨r, w1, ⟨rfl, ⟨d, hd, rfl⟩ | ⟨e, rfl⟩⟩, h2⟩
    · exact Or.inl rfl
    · exact h.elim
    · exact Or.inr ⟨d, by rw [if_neg hs]; exact hd, h2⟩
    · exact Or.inl (sees_ret.1 h2)
  · rename_i hs
    split at h
    · exact Or.inl (sees_ret.1 h)
    · rename_i h0
      exact Or.inr ⟨a.script, by rw [if_pos (Classical.byContradiction hs)]; exact ⟨rfl, h0⟩, h⟩

theorem through_loop_ends [Ext] (file : Naming) (a : EditArgs) (hi : a.inPlace = true) (he : a.expressions = []) (hf : a.files ≠ [])
    (hc : ¬ Contradictory a) (w w' : World) (r : Option Bytes) (h : Ends ((runEdit a).through file) w r w') :
    (w' = w ∧ ∃ e, r = some e) ∨
    ∃ script bad, ScriptOf a (seen file w) script ∧ Ends ((inPlaceLoop a script a.files).through file) w bad w' ∧
      r = if bad then some (b! "some files could not be edited") else none := by
  obtain ⟨h1, h2⟩ := inPlace_form a hi he hf hc
  rw [h1] at h
  rcases through_runScript_ends file a w w' r h with h | ⟨script, hs, h⟩
  · exact .inl h
  · rw [h2, processFilesInPlace, through_bind] at h
    obtain ⟨bad, w1, h3, h4⟩ := ends_bind.1 h
    obtain ⟨rfl, rfl⟩ := ends_ret.1 h4
    exact .inr ⟨script, bad, hs, h3, rfl⟩

theorem through_loop_sees [Ext] (file : Naming) (a : EditArgs) (hi : a.inPlace = true) (w w' : World)
    (h : Sees ((runEdit a).through file) w w') :
    w'.files = w.files ∨ ∃ script, ScriptOf a (seen file w) script ∧ Sees ((inPlaceLoop a script a.files).through file) w w' := by
  by_cases hx : a.expressions = []
  · by_cases hf : a.files = []
    · left
      funext n
      refine C86_in_place_scope file a hi w w' h n ?_
      rintro q (hq | ⟨_, f, hq, _⟩) <;> rw [hf] at hq <;> cases hq
    · by_cases hc : Contradictory a
      · obtain ⟨e, he⟩ := refused_of_contradictory a hc
        rw [he] at h
        rw [sees_ret.1 h]; exact .inl rfl
      · obtain ⟨h1, h2⟩ := inPlace_form a hi hx hf hc
        rw [h1] at h
        rcases through_runScript_sees file a w w' h with rfl | ⟨script, hs, h⟩
        · exact .inl rfl
        · rw [h2, processFilesInPlace, through_bind] at h
          refine .inr ⟨script, hs, ?_⟩
          rcases sees_bind.1 h with h | ⟨b, w2, h3, h4⟩
          · exact h
          · rw [sees_ret.1 h4]; exact ends_sees h3
  · left
    funext n
    refine (WritesOnly.through (writes_runEdit a) file).sees h n ?_
    rintro ⟨q, hq, _⟩
    exact hx hq.2.1

/-- C86. In-place editing where the files and the backups are all different, however they are named: either nothing happened and the command
failed, or every file was treated on its own, and the command reports success exactly if every file was edited (C62). No other file changes. -/
theorem C86_in_place [Ext] (file : Naming) (a : EditArgs) (hi : a.inPlace = true) (he : a.expressions = []) (hd : a.dryRun = false)
    (hf : a.files ≠ []) (hnd : a.files.Nodup) (hcol : a.backupSuffix ≠ [] → ∀ f ∈ a.files, ∀ g ∈ a.files, f ++ a.backupSuffix ≠ g)
    (hap : Apart file (InPlaceName a)) (hc : ¬ Contradictory a) (w w' : World) (r : Option Bytes)
    (h : Ends ((runEdit a).through file) w r w') :
    (w' = w ∧ ∃ e, r = some e) ∨
    ∃ script, ScriptOf a (seen file w) script ∧ ∃ failed : Bytes → Bool,
      (r = none ↔ ∀ f ∈ a.files, failed f = false) ∧
      (∀ f ∈ a.files, InPlace (fun c => executeScriptWithFormat c script a.format) (w.files (file f)) (failed f) (w'.files (file f)) ∧
        (a.backupSuffix ≠ [] → failed f = false → w'.files (file (f ++ a.backupSuffix)) = w.files (file f))) ∧
      ∀ n, (∀ q, InPlaceName a q → file q ≠ n) → w'.files n = w.files n := by
  rcases through_loop_ends file a hi he hf hc w w' r h with h | ⟨script, bad, hs, h1, hr⟩
  · exact .inl h
  · obtain ⟨u, h2, ⟨h3, _⟩, h4⟩ := ends_through hap (mentions_all a script) (shows_seen file _ w) h1
    obtain ⟨failed, hbad, hall⟩ := inPlaceLoop_ends a script hd a.files hnd hcol _ u bad h2
    refine Or.inr ⟨script, hs, failed, ?_, fun f hf => ?_, h4⟩
    · rw [hr, hbad]
      cases hany : a.files.any failed with
      | true =>
        rw [List.any_eq_true] at hany
        obtain ⟨f, hf, hff⟩ := hany
        exact ⟨fun h => (nomatch h), fun h => by rw [h f hf] at hff; cases hff⟩
      | false =>
        rw [List.any_eq_false] at hany
        exact ⟨fun _ f hf => by simpa using hany f hf, fun _ => rfl⟩
    · obtain ⟨o1, o2⟩ := hall f hf
      rw [h3 f (.inl hf)] at o1
      exact ⟨o1, fun hs hff => by rw [← h3 _ (.inr ⟨hs, f, hf, rfl⟩)]; exact o2 hs hff⟩

/-- C86. With --in-place --backup, if the files and the backups are all different files, then at every moment of every run the original contents
of every file are in the file or in its backup (C31). -/
theorem C86_original_survives [Ext] (file : Naming) (a : EditArgs) (hi : a.inPlace = true) (hs : a.backupSuffix ≠ []) (hnd : a.files.Nodup)
    (hcol : ∀ f ∈ a.files, ∀ g ∈ a.files, f ++ a.backupSuffix ≠ g) (hap : Apart file (InPlaceName a)) (w w' : World)
    (h : Sees ((runEdit a).through file) w w') (f c : Bytes) (hf : f ∈ a.files) (hc : w.files (file f) = some c) :
    w'.files (file f) = some c ∨ w'.files (file (f ++ a.backupSuffix)) = some c := by
  rcases through_loop_sees file a hi w w' h with h | ⟨script, _, h⟩
  · rw [h]; exact .inl hc
  · obtain ⟨u, h2, ⟨h3, _⟩, _⟩ := sees_through hap (mentions_all a script) (shows_seen file _ w) h
    rw [← h3 f (.inl hf), ← h3 _ (.inr ⟨hs, f, hf, rfl⟩)]
    exact inPlaceLoop_keeps a script hs a.files hnd hcol _ u h2 f c hf hc

/-- C86, negative result: if the name of the backup leads to the file itself (a link made to keep an eye on it), --backup destroys the file
before the script is even looked at: there is a moment at which the contents are gone, whatever the script. -/
theorem C86_false_backup_link [Ext] (file : Naming) (a : EditArgs) (hi : a.inPlace = true) (he : a.expressions = []) (hd : a.dryRun = false)
    (hs : a.backupSuffix ≠ []) (hc : ¬ Contradictory a) (w : World) (script : Bytes) (hscript : ScriptOf a (seen file w) script)
    (f : Bytes) (rest : List Bytes) (hf : a.files = f :: rest) (c : Bytes) (hfc : w.files (file f) = some c)
    (hlink : file (f ++ a.backupSuffix) = file f) :
    ∃ w', Sees ((runEdit a).through file) w w' ∧ w'.files (file f) = some [] ∧ ∀ n, n ≠ file f → w'.files n = w.files n := by
  obtain ⟨h1, h2⟩ := inPlace_form a hi he (by rw [hf]; simp) hc
  let w1 := w.printed a.loud (b! "Processing " ++ f ++ b! " in place\n")
  let w2 := w1.printed a.loud (b! "Creating backup " ++ (f ++ a.backupSuffix) ++ [nl])
  have hw2 : w2.files = w.files := by rw [World.printed_files, World.printed_files]
  refine ⟨w2.put (file f) [], ?_, World.put_same _ _ _, fun n hn => by rw [World.put_other _ _ _ _ hn, hw2]⟩
  have hone : Sees ((inPlaceOne a script f).through file) w (w2.put (file f) []) := by
    unfold inPlaceOne
    rw [through_say]
    apply sees_say_of
    rw [if_neg (by rw [hd]; simp), if_pos hs, through_say]
    apply sees_say_of
    refine sees_act.2 (Or.inr ⟨.ok c, w2, ⟨rfl, Or.inl ⟨c, by rw [hw2]; exact hfc, rfl⟩⟩, ?_⟩)
    refine sees_act.2 (Or.inl (Or.inr ⟨0, Nat.zero_le _, ?_⟩))
    rw [hlink]; rfl
  have happly : Sees ((applyScript a script).through file) w (w2.put (file f) []) := by
    rw [h2, processFilesInPlace, through_bind, hf]
    refine sees_bind.2 (Or.inl ?_)
    rw [inPlaceLoop, through_bind]
    exact sees_bind.2 (Or.inl hone)
  rw [h1]
  unfold runScript
  unfold ScriptOf at hscript
  split
  · rename_i hsf
    rw [if_neg hsf] at hscript
    exact sees_act.2 (Or.inr ⟨.ok script, w, ⟨rfl, Or.inl ⟨script, hscript, rfl⟩⟩, happly⟩)
  · rename_i hsf
    rw [if_pos (Classical.byContradiction hsf)] at hscript
    obtain ⟨rfl, h0⟩ := hscript
    rw [if_neg h0]; exact happly

/-- C86. One file to an output: if the command succeeds, the file the output name leads to holds the script's output on the contents of the
file the input name leads to, and no other file is changed. The two names may lead to the same file. -/
theorem C86_output [Ext] (file : Naming) (a : EditArgs) (f : Bytes) (hf : a.files = [f]) (ho : a.outputFile ≠ []) (he : a.expressions = [])
    (hd : a.dryRun = false) (w w' : World) (h : Ends ((runEdit a).through file) w none w') :
    ∃ script c t, ScriptOf a (seen file w) script ∧ w.files (file f) = some c ∧ executeScriptWithFormat c script a.format = .ok t ∧
      w'.files = (w.put (file a.outputFile) t).files := by
  have hc : ¬ Contradictory a := by
    intro hc
    obtain ⟨e, he⟩ := refused_of_contradictory a hc
    rw [he] at h
    exact absurd (ends_ret.1 h).1 (by simp)
  rw [runEdit_consistent a hc he] at h
  rcases through_runScript_ends file a w w' none h with ⟨_, _, h⟩ | ⟨script, hs, h⟩
  · cases h
  · have h1 : applyScript a script = processSingle a script f a.outputFile (.write a.outputFile) := by
      unfold applyScript processFiles
      rw [hf, if_neg (by simp)]
      simp only
      rw [if_pos ho]
    rw [h1, processSingle, through_say] at h
    obtain ⟨w1, hw1, h⟩ := ends_say h
    rw [if_neg (by rw [hd]; simp)] at h
    obtain ⟨r, w2, ⟨rfl, ⟨d, hc, rfl⟩ | ⟨e, rfl⟩⟩, h2⟩ := ends_act.1 h
    · simp only at h2
      cases hx : executeScriptWithFormat d script a.format with
      | panic => rw [hx] at h2; exact absurd h2 ends_panic
      | err e => rw [hx] at h2; exact absurd (ends_ret.1 h2).1 (by simp)
      | ok t =>
        rw [hx] at h2
        obtain ⟨r, w3, h3, h4⟩ := ends_act.1 h2
        refine ⟨script, d, t, hs, by rw [← hw1]; exact hc, hx, ?_⟩
        rcases h3 with ⟨rfl, rfl⟩ | ⟨e, rfl, _⟩
        · obtain ⟨_, rfl⟩ := ends_ret.1 h4
          simp only [World.put, hw1]
        · exact absurd (ends_ret.1 h4).1 (by simp)
    · exact absurd (ends_ret.1 h2).1 (by simp)

/-! ### Concurrent requests -/

/-- C86. Concurrent requests whose files are different (by whatever names; inside a request the names may lead to the same files): at every
moment each request is where it could be if it had been running alone, and when all have ended, results and files are those of running
them one after the other (C57). -/
theorem C86_concurrent [Ext] (file : Naming) (reqs : Requests)
    (hd : ∀ (i j : Nat) (x y : List Bytes × Bytes), i ≠ j → reqs[i]? = some x → reqs[j]? = some y → ∀ f ∈ x.1, ∀ g ∈ y.1, file f ≠ file g)
    (w w' : World) :
    (∀ rs, PoolSteps (((calls reqs).map (·.through file)).map .at, w) (rs, w') →
      rs.length = reqs.length ∧
      (∀ (i : Nat) (x : List Bytes × Bytes) r, reqs[i]? = some x → rs[i]? = some r →
        ∃ wi, Steps (.at ((editFiles x.1 x.2).through file), w) (r, wi) ∧ ∀ f ∈ x.1, w'.files (file f) = wi.files (file f)) ∧
      (∀ n, (∀ x ∈ reqs, ∀ f ∈ x.1, file f ≠ n) → w'.files n = w.files n)) ∧
    (∀ results, AllEnd ((calls reqs).map (·.through file)) w results w' → InTurn ((calls reqs).map (·.through file)) w results w') := by
  let S : Nat → Bytes → Prop := fun i n => ∃ q, filesOf reqs i q ∧ n = file q
  have hdis : ∀ i j n, i ≠ j → S i n → ¬ S j n := by
    rintro i j n hij ⟨p, ⟨x, hx, hp⟩, rfl⟩ ⟨q, ⟨y, hy, hq⟩, e⟩
    exact hd i j x y hij hx hy p hp q hq e
  have htou : ∀ i p, ((calls reqs).map (·.through file))[i]? = some p → Touches (S i) p := by
    intro i p hp
    rw [List.getElem?_map] at hp
    cases hx : (calls reqs)[i]? with
    | none => rw [hx] at hp; cases hp
    | some x => rw [hx] at hp; cases hp; exact (filesOf_touches reqs i x hx).through file
  constructor
  · intro rs h
    obtain ⟨h1, h2, h3, _⟩ := alone_steps hdis h (alone_start S _ htou w)
    refine ⟨h1.trans (by simp [calls]), ?_, ?_⟩
    · intro i x r hx hr
      obtain ⟨_, wi, h4, h5⟩ := h2 i ((editFiles x.1 x.2).through file) r
        (by rw [List.getElem?_map, calls, List.getElem?_map, hx]; rfl) hr
      exact ⟨wi, h4, fun f hf => (h5 (file f) ⟨f, ⟨x, hx, hf⟩, rfl⟩).symm⟩
    · intro n hn
      refine h3 n fun i _ => ?_
      rintro ⟨q, ⟨x, hx, hq⟩, rfl⟩
      exact hn x (List.mem_of_getElem? hx) q hq rfl
  · intro results h
    obtain ⟨h1, h2, h3, h4, h5⟩ := alone_steps hdis h (alone_start S _ htou w)
    refine inTurn_of_alone _ S hdis htou results w w' w (by simpa using h1) ?_ h3 ?_ h4 h5
    · intro i p a hp ha
      obtain ⟨_, wi, h6, h7⟩ := h2 i p (.at (.ret a)) hp (by rw [List.getElem?_map, ha]; rfl)
      exact ⟨wi, h6, h7⟩
    · intro i _ q _; rfl

/-! ### Cases -/

/-- `./f` is another name of `f`. -/
def dotSlash : Naming := fun q => if q = b! "./f" then b! "f" else q

/-- `f~` is a link to `f`. -/
def linkedBackup : Naming := fun q => if q = b! "f~" then b! "f" else q

/-- The hypotheses of `C86_in_place` and `C86_original_survives` are met, by a command with another name of a file. -/
example : let a : EditArgs := { script := b! "search-forward \"l\"; insert \"X\"", files := [b! "./f", b! "g"], inPlace := true, backupSuffix := b! "~" }
    ¬ Contradictory a ∧ a.files.Nodup ∧ (∀ f ∈ a.files, ∀ g ∈ a.files, f ++ a.backupSuffix ≠ g) ∧ Apart dotSlash (InPlaceName a) ∧
    let r := @runOk _ (fun _ => []) ((@runEdit litExt a).through dotSlash) twoFiles
    r.1 = some none ∧ r.2.files (b! "f") = some (b! "helXlo") ∧ r.2.files (b! "./f~") = some (b! "hello") ∧
      r.2.files (b! "g") = some (b! "worlXd") ∧ r.2.files (b! "g~") = some (b! "world") := by
  refine ⟨?_, by decide, by decide, ?_, by decide +kernel⟩
  · rintro (h | h | h | h)
    · exact h (Or.inl rfl)
    · exact absurd rfl h.1
    · exact absurd h.2 (by decide)
    · exact absurd rfl h.1
  · have key : ∀ q, InPlaceName { script := b! "search-forward \"l\"; insert \"X\"", files := [b! "./f", b! "g"], inPlace := true, backupSuffix := b! "~" } q →
        q ∈ [b! "./f", b! "g", b! "./f~", b! "g~"] := by
      rintro q (h | ⟨_, f, h, rfl⟩)
      · simp only [List.mem_cons, List.not_mem_nil, or_false] at h ⊢
        rcases h with rfl | rfl <;> simp
      · simp only [List.mem_cons, List.not_mem_nil, or_false] at h
        rcases h with rfl | rfl <;> decide
    have all : ∀ p ∈ [b! "./f", b! "g", b! "./f~", b! "g~"], ∀ q ∈ [b! "./f", b! "g", b! "./f~", b! "g~"], dotSlash p = dotSlash q → p = q := by
      decide
    exact fun p q hp hq => all p (key p hp) q (key q hq)

/-- The hypotheses of `C86_same_file` are met: two names of one file, the script is applied twice. -/
example : (∀ f ∈ [b! "f", b! "./f"], dotSlash f = b! "f") ∧
    let r := @runOk _ (fun _ => []) ((@editFiles litExt [b! "f", b! "./f"] (b! "insert \"X\"")).through dotSlash) twoFiles
    (r.1.map fun l => l.map (·.success)) = some [true, true] ∧ r.2.files (b! "f") = some (b! "XXhello") := by
  refine ⟨by decide, by decide +kernel⟩

/-- The hypothesis of `C86_independent` is met. -/
example : ([b! "./f", b! "g"].map dotSlash).Nodup := by decide

/-- The hypotheses of `C86_false_backup_link` are met, by a script that cannot even be parsed. -/
example : let a : EditArgs := { script := b! "insert \"X", files := [b! "f"], inPlace := true, backupSuffix := b! "~" }
    ¬ Contradictory a ∧ ScriptOf a (seen linkedBackup twoFiles) (b! "insert \"X") ∧ twoFiles.files (linkedBackup (b! "f")) = some (b! "hello") ∧
    linkedBackup (b! "f" ++ a.backupSuffix) = linkedBackup (b! "f") := by
  refine ⟨?_, ⟨rfl, by simp⟩, rfl, rfl⟩
  rintro (h | h | h | h)
  · exact h (Or.inl rfl)
  · exact absurd rfl h.1
  · exact absurd h.2 (by decide)
  · exact absurd rfl h.1

/-- `C86_output` with another name of the input as output. -/
example : let r := @runOk _ (fun _ => []) ((@runEdit litExt { script := b! "insert \"X\"", files := [b! "f"], outputFile := b! "./f" }).through dotSlash) twoFiles
    r.1 = some none ∧ r.2.files (b! "f") = some (b! "Xhello") := by decide +kernel

/-- The hypothesis of `C86_concurrent` is met: one request on two names of a file, one on another file. -/
example : let reqs : Requests := [([b! "f", b! "./f"], b! "insert \"X\""), ([b! "g"], b! "insert \"Y\"")]
    ∀ (i j : Nat) (x y : List Bytes × Bytes), i ≠ j → reqs[i]? = some x → reqs[j]? = some y → ∀ f ∈ x.1, ∀ g ∈ y.1, dotSlash f ≠ dotSlash g := by
  intro reqs i j x y hij hx hy
  match i, j with
  | 0, 0 => exact absurd rfl hij
  | 1, 1 => exact absurd rfl hij
  | 0, 1 => cases hx; cases hy; decide
  | 1, 0 => cases hx; cases hy; decide
  | _ + 2, _ => cases hx
  | _, _ + 2 => cases hy

end Texted
