import Verif.Props.Docs
import Verif.Spec.Registry
/-
C90: the documentation registry used by several goroutines.
-/
namespace Texted
open Spec

/-! ### Counting goroutines -/

/-- The sum of a number over all goroutines. -/
def tally (f : DocPhase → Nat) (l : List DocPhase) : Nat := (l.map f).sum

theorem tally_set (f : DocPhase → Nat) (l : List DocPhase) (t : Nat) (p p' : DocPhase) (h : l[t]? = some p) :
    tally f (l.set t p') + f p = tally f l + f p' := by
  induction l generalizing t with
  | nil => simp at h
  | cons x xs ih =>
    cases t with
    | zero =>
      have : x = p := by simpa using h
      subst this
      simp [tally]; omega
    | succ t =>
      have := ih t (by simpa using h)
      simp [tally] at this ⊢; omega

theorem tally_le (f : DocPhase → Nat) (l : List DocPhase) (t : Nat) (p : DocPhase) (h : l[t]? = some p) : f p ≤ tally f l := by
  induction l generalizing t with
  | nil => simp at h
  | cons x xs ih =>
    cases t with
    | zero =>
      have : x = p := by simpa using h
      subst this
      simp [tally]
    | succ t =>
      have := ih t (by simpa using h)
      simp [tally] at this ⊢; omega

theorem tally_two (f : DocPhase → Nat) (l : List DocPhase) (t u : Nat) (p q : DocPhase) (h : l[t]? = some p) (h' : l[u]? = some q) (hn : t ≠ u) :
    f p + f q ≤ tally f l := by
  induction l generalizing t u with
  | nil => simp at h
  | cons x xs ih =>
    cases t with
    | zero =>
      cases u with
      | zero => exact absurd rfl hn
      | succ u =>
        have : x = p := by simpa using h
        subst this
        have := tally_le f xs u q (by simpa using h')
        simp [tally] at this ⊢; omega
    | succ t =>
      cases u with
      | zero =>
        have : x = q := by simpa using h'
        subst this
        have := tally_le f xs t p (by simpa using h)
        simp [tally] at this ⊢; omega
      | succ u =>
        have := ih t u (by simpa using h) (by simpa using h') (by omega)
        simp [tally] at this ⊢; omega

theorem tally_pos (f : DocPhase → Nat) (l : List DocPhase) (h : 0 < tally f l) : ∃ (t : Nat) (p : DocPhase), l[t]? = some p ∧ 0 < f p := by
  induction l with
  | nil => simp [tally] at h
  | cons x xs ih =>
    by_cases hx : 0 < f x
    · exact ⟨0, x, rfl, hx⟩
    · obtain ⟨t, p, ht, hp⟩ := ih (by simp [tally] at h ⊢; omega)
      exact ⟨t + 1, p, by simpa using ht, hp⟩

/-- Holds the lock for reading. -/
def holdsRead : DocPhase → Nat
  | .reading _ _ => 1
  | .answered _ _ => 1
  | _ => 0

/-- Has announced itself as a writer. -/
def announced : DocPhase → Nat
  | .waits _ => 1
  | .writing _ => 1
  | .written _ => 1
  | _ => 0

/-- Holds the lock for writing. -/
def holdsWrite : DocPhase → Nat
  | .writing _ => 1
  | .written _ => 1
  | _ => 0

/-! ### The invariant -/

/-- The call the goroutine is in. -/
def callOf : DocPhase → Option RegCall
  | .idle => none
  | .wants d => some (.register d)
  | .waits d => some (.register d)
  | .writing d => some (.register d)
  | .written d => some (.register d)
  | .stored d => some (.register d)
  | .asks q => some (.query q)
  | .reading q _ => some (.query q)
  | .answered q _ => some (.query q)
  | .released q _ => some (.query q)

/-- What the goroutine has done since its call. -/
def SinceCall (t : Nat) (pre post : List (Nat × DocAct)) (trace : List (Nat × DocAct)) : DocPhase → Prop
  | .idle => True
  | .wants _ => NothingBy t post
  | .waits _ => NothingBy t post
  | .writing _ => NothingBy t post
  | .written d => TakesEffect t pre post (.register d) .done
  | .stored d => TakesEffect t pre post (.register d) .done
  | .asks _ => NothingBy t post
  | .reading _ seen => NothingBy t post ∧ (seen.map (·.name)).Nodup ∧ ∀ x ∈ seen, x ∈ registryOf (assigned trace)
  | .answered q a => NothingBy t post ∧ RightAnswer (assigned trace) q a
  | .released q a => TakesEffect t pre post (.query q) a

/-- A goroutine that is in a call has been in it since this moment. -/
def ThreadOk (trace : List (Nat × DocAct)) (t : Nat) (p : DocPhase) : Prop :=
  ∀ c, callOf p = some c → ∃ pre post, trace = pre ++ (t, .call c) :: post ∧ NoOtherCall t post ∧ SinceCall t pre post trace p

/-- What holds at every moment. -/
structure DocInv (trace : List (Nat × DocAct)) (s : DocState) : Prop where
  readers : s.readers = tally holdsRead s.threads
  writer : tally announced s.threads = if s.writer then 1 else 0
  exclusive : 0 < tally holdsWrite s.threads → s.readers = 0
  reg : s.reg = registryOf (assigned trace)
  threads : ∀ (t : Nat) (p : DocPhase), s.threads[t]? = some p → ThreadOk trace t p

theorem assigned_append (a b : List (Nat × DocAct)) : assigned (a ++ b) = assigned a ++ assigned b := by simp [assigned]

theorem within_snoc {t : Nat} {post : List (Nat × DocAct)} (h : NoOtherCall t post) (e : Nat × DocAct)
    (he : e.1 = t → ∀ c a, e.2 ≠ .call c ∧ e.2 ≠ .ret c a) : NoOtherCall t (post ++ [e]) := by
  intro x hx
  rcases List.mem_append.mp hx with hx | hx
  · exact h x hx
  · rw [List.mem_singleton.mp hx]; exact he

theorem nothingBy_snoc {t : Nat} {post : List (Nat × DocAct)} (h : NothingBy t post) (e : Nat × DocAct)
    (he : e.1 = t → ∀ d, e.2 ≠ .assign d) : NothingBy t (post ++ [e]) := by
  intro x hx
  rcases List.mem_append.mp hx with hx | hx
  · exact h x hx
  · rw [List.mem_singleton.mp hx]; exact he

theorem takesEffect_snoc {t : Nat} {pre post : List (Nat × DocAct)} {c : RegCall} {a : DocAnswer} (h : TakesEffect t pre post c a)
    (e : Nat × DocAct) (he : e.1 = t → ∀ d, e.2 ≠ .assign d) : TakesEffect t pre (post ++ [e]) c a := by
  cases c with
  | register d =>
    obtain ⟨ha, u, v, hp, hu, hv⟩ := h
    exact ⟨ha, u, v ++ [e], by simp [hp], hu, nothingBy_snoc hv e he⟩
  | query q =>
    obtain ⟨hn, u, v, hp, hr⟩ := h
    exact ⟨nothingBy_snoc hn e he, u, v ++ [e], by simp [hp], hr⟩

/-- An action of another goroutine leaves what is known of this one, provided it does not change the map while this one reads it. -/
theorem threadOk_other {trace : List (Nat × DocAct)} {t : Nat} {p : DocPhase} (h : ThreadOk trace t p) (e : Nat × DocAct) (hne : e.1 ≠ t)
    (hr : holdsRead p = 0 ∨ ∀ d, e.2 ≠ .assign d) : ThreadOk (trace ++ [e]) t p := by
  intro c hc
  obtain ⟨pre, post, ht, hw, hs⟩ := h c hc
  refine ⟨pre, post ++ [e], by simp [ht], within_snoc hw e fun x => absurd x hne, ?_⟩
  have hn : ∀ {post}, NothingBy t post → NothingBy t (post ++ [e]) := fun h => nothingBy_snoc h e fun x => absurd x hne
  have hT : ∀ {c a}, TakesEffect t pre post c a → TakesEffect t pre (post ++ [e]) c a := fun h => takesEffect_snoc h e fun x => absurd x hne
  have ha : (∀ d, e.2 ≠ .assign d) → assigned (trace ++ [e]) = assigned trace := by
    intro hq
    rw [assigned_append]
    have : assigned [e] = [] := by
      obtain ⟨i, x⟩ := e
      cases x <;> first | rfl | exact absurd rfl (hq _)
    simp [this]
  cases p with
  | idle => trivial
  | wants d => exact hn hs
  | waits d => exact hn hs
  | writing d => exact hn hs
  | written d => exact hT (c := .register d) (a := .done) hs
  | stored d => exact hT (c := .register d) (a := .done) hs
  | asks q => exact hn hs
  | reading q seen =>
    rcases hr with hr | hr
    · cases hr
    · exact ⟨hn hs.1, hs.2.1, by rw [ha hr]; exact hs.2.2⟩
  | answered q a =>
    rcases hr with hr | hr
    · cases hr
    · exact ⟨hn hs.1, by rw [ha hr]; exact hs.2⟩
  | released q a => exact hT (c := .query q) (a := a) hs

theorem get_set {l : List DocPhase} {t u : Nat} {p q : DocPhase} (h : (l.set t p)[u]? = some q) : (u = t ∧ q = p) ∨ (u ≠ t ∧ l[u]? = some q) := by
  by_cases hu : t = u
  · subst hu
    rw [List.getElem?_set_self'] at h
    cases hl : l[t]? with
    | none => simp [hl] at h
    | some x => simp [hl] at h; exact .inl ⟨rfl, h.symm⟩
  · rw [List.getElem?_set_ne hu] at h
    exact .inr ⟨fun x => hu x.symm, h⟩

/-- The visited entries are all entries. -/
theorem seen_perm {calls : List FunctionDoc} {seen : List FunctionDoc} (hn : (seen.map (·.name)).Nodup)
    (hs : ∀ x ∈ seen, x ∈ registryOf calls) (he : ∀ d ∈ registryOf calls, ∃ x ∈ seen, x.name = d.name) : seen.Perm (registryOf calls) := by
  have nd : ∀ l : List FunctionDoc, (l.map (·.name)).Nodup → l.Nodup := by
    intro l h
    rw [List.nodup_iff_pairwise_ne] at h ⊢
    rw [List.pairwise_map] at h
    exact h.imp fun {a b} (h : a.name ≠ b.name) (x : a = b) => h (congrArg _ x)
  rw [List.perm_ext_iff_of_nodup (nd _ hn) (nd _ (registry_names _))]
  intro d
  refine ⟨hs d, fun hd => ?_⟩
  obtain ⟨x, hx, hxn⟩ := he d hd
  exact registered_inj (hs x hx) hd hxn ▸ hx

theorem computes_right {calls : List FunctionDoc} {seen : List FunctionDoc} {q : DocQuery} {a : DocAnswer}
    (hp : seen.Perm (registryOf calls)) (hc : Computes q seen a) : RightAnswer calls q a := by
  cases q with
  | byName n => exact hc.elim
  | count => exact hc.elim
  | all =>
    obtain ⟨out, ho, rfl⟩ := hc
    exact ⟨out, rfl, (C54_all calls out).mp ⟨seen, hp, ho⟩⟩
  | byCategory c =>
    obtain ⟨out, ho, rfl⟩ := hc
    exact ⟨out, rfl, (C54_by_category calls c out).mp ⟨seen, hp, ho⟩⟩
  | categories =>
    obtain ⟨keys, out, hk, ho, hs, rfl⟩ := hc
    refine ⟨out, rfl, (C54_categories calls out).mp ⟨keys, ⟨hk.1, fun k => ?_⟩, ho, hs⟩⟩
    rw [hk.2]
    simp only [List.mem_filter, List.mem_map, hp.mem_iff]

theorem registered_exists (l : List FunctionDoc) (n : Bytes) (h : ∃ y ∈ l, y.name = n) : ∃ e, Registered l e ∧ e.name = n := by
  induction l with
  | nil => obtain ⟨y, hy, -⟩ := h; cases hy
  | cons z zs ih =>
    by_cases hh : ∃ y ∈ zs, y.name = n
    · obtain ⟨e, ⟨pre, post, h1, h2⟩, hn⟩ := ih hh
      exact ⟨e, ⟨z :: pre, post, by simp [h1], h2⟩, hn⟩
    · obtain ⟨y, hy, hyn⟩ := h
      rcases List.mem_cons.mp hy with rfl | hy
      · exact ⟨y, ⟨[], zs, rfl, fun w hw hwn => hh ⟨w, hw, hwn.trans hyn⟩⟩, hyn⟩
      · exact absurd ⟨y, hy, hyn⟩ hh

theorem count_right (calls : List FunctionDoc) : RightAnswer calls .count (.number (registryOf calls).length) := by
  refine ⟨(registryOf calls).map (·.name), by simp, registry_names calls, fun n => ?_⟩
  rw [List.mem_map]
  constructor
  · rintro ⟨d, hd, rfl⟩
    obtain ⟨pre, post, h, -⟩ := (C54_registry calls d).mp hd
    exact ⟨d, by simp [h], rfl⟩
  · intro h
    obtain ⟨e, he, hn⟩ := registered_exists calls n h
    exact ⟨e, (C54_registry calls e).mpr he, hn⟩

/-- What remains to be shown for an action of goroutine `t` that does not change the map. -/
theorem inv_step {trace : List (Nat × DocAct)} {s s' : DocState} {t : Nat} {x : DocAct} {p p' : DocPhase} (hi : DocInv trace s)
    (h : s.threads[t]? = some p) (ht : s'.threads = s.threads.set t p')
    (hr : s'.readers + holdsRead p = s.readers + holdsRead p')
    (hw : (if s'.writer then 1 else 0) + announced p = (if s.writer then 1 else 0) + announced p')
    (hx : 0 < tally holdsWrite s'.threads → s'.readers = 0)
    (hg : s'.reg = registryOf (assigned (trace ++ [(t, x)])))
    (hm : (∀ d, x ≠ .assign d) ∨ ∀ (u : Nat) (q : DocPhase), s.threads[u]? = some q → holdsRead q = 0)
    (ho : ThreadOk (trace ++ [(t, x)]) t p') : DocInv (trace ++ [(t, x)]) s' := by
  refine ⟨?_, ?_, hx, hg, ?_⟩
  · have := tally_set holdsRead s.threads t p p' h
    rw [ht]; have := hi.readers; omega
  · have := tally_set announced s.threads t p p' h
    rw [ht]; have := hi.writer; omega
  · intro u q hu
    rw [ht] at hu
    rcases get_set hu with ⟨rfl, rfl⟩ | ⟨hne, hu⟩
    · exact ho
    · refine threadOk_other (hi.threads u q hu) _ (fun e => hne e.symm) ?_
      rcases hm with hm | hm
      · exact .inr hm
      · exact .inl (hm u q hu)

/-- An action of the goroutine itself that keeps it in its call and registers nothing. -/
theorem threadOk_same {trace : List (Nat × DocAct)} {t : Nat} {p p' : DocPhase} {x : DocAct} (h : ThreadOk trace t p) (hc : callOf p' = callOf p)
    (hx : ∀ c a, x ≠ .call c ∧ x ≠ .ret c a)
    (hs : ∀ pre post c, trace = pre ++ (t, .call c) :: post → callOf p = some c → SinceCall t pre post trace p →
      SinceCall t pre (post ++ [(t, x)]) (trace ++ [(t, x)]) p') : ThreadOk (trace ++ [(t, x)]) t p' := by
  intro c hcc
  rw [hc] at hcc
  obtain ⟨pre, post, ht, hw, hss⟩ := h c hcc
  exact ⟨pre, post ++ [(t, x)], by simp [ht], within_snoc hw _ fun _ => hx, hs pre post c ht hcc hss⟩

theorem assigned_quiet {trace : List (Nat × DocAct)} {t : Nat} {x : DocAct} (h : ∀ d, x ≠ .assign d) : assigned (trace ++ [(t, x)]) = assigned trace := by
  rw [assigned_append]
  have : assigned [(t, x)] = [] := by cases x <;> first | rfl | exact absurd rfl (h _)
  simp [this]

theorem holdsWrite_set {s : DocState} {t : Nat} {p p' : DocPhase} (h : s.threads[t]? = some p) (hp : holdsWrite p' ≤ holdsWrite p) :
    tally holdsWrite (s.threads.set t p') ≤ tally holdsWrite s.threads := by
  have := tally_set holdsWrite s.threads t p p' h
  omega

theorem no_reader {s : DocState} {trace : List (Nat × DocAct)} (hi : DocInv trace s) (h : s.readers = 0) (u : Nat) (q : DocPhase)
    (hu : s.threads[u]? = some q) : holdsRead q = 0 := by
  have := tally_le holdsRead s.threads u q hu
  have := hi.readers
  omega

theorem no_writer {s : DocState} {trace : List (Nat × DocAct)} (hi : DocInv trace s) (h : s.writer = false) : tally holdsWrite s.threads = 0 := by
  have h1 := hi.writer
  rw [h] at h1
  have h2 : tally holdsWrite s.threads ≤ tally announced s.threads := by
    generalize s.threads = l
    induction l with
    | nil => simp [tally]
    | cons x xs ih =>
      simp [tally] at ih ⊢
      have : holdsWrite x ≤ announced x := by cases x <;> simp [holdsWrite, announced]
      omega
  simp at h1
  omega

theorem inv_run {n : Nat} {trace : List (Nat × DocAct)} {s : DocState} (h : DocRun (docStart n) trace s) : DocInv trace s := by
  induction h with
  | nil =>
    have hz : ∀ f : DocPhase → Nat, f .idle = 0 → tally f (List.replicate n .idle) = 0 := by
      intro f hf
      simp [tally, hf]
    refine ⟨(hz _ rfl).symm, by simpa [docStart] using hz announced rfl, fun hp => absurd hp (by simp [docStart, hz holdsWrite rfl]), rfl, ?_⟩
    intro t p hp c hc
    have : p = .idle := by
      have := List.mem_of_getElem? hp
      exact (List.mem_replicate.mp this).2
    subst this
    cases hc
  | snoc hr hs ih =>
    rename_i s1 s2 trace e
    have hi := ih
    clear ih hr
    have ok := hi.threads
    cases hs with
    | callRegister h =>
      refine inv_step hi h rfl rfl rfl (fun hp => hi.exclusive (Nat.lt_of_lt_of_le hp (holdsWrite_set h (Nat.le_refl 0)))) ?_ (.inl fun _ => nofun) ?_
      · rw [assigned_quiet (by intro d h; cases h)]; exact hi.reg
      · intro c hc
        cases hc
        exact ⟨_, [], rfl, fun _ hx => (nomatch hx), fun _ hx => (nomatch hx)⟩
    | callQuery h =>
      refine inv_step hi h rfl rfl rfl (fun hp => hi.exclusive (Nat.lt_of_lt_of_le hp (holdsWrite_set h (Nat.le_refl 0)))) ?_ (.inl fun _ => nofun) ?_
      · rw [assigned_quiet (by intro d h; cases h)]; exact hi.reg
      · intro c hc
        cases hc
        exact ⟨_, [], rfl, fun _ hx => (nomatch hx), fun _ hx => (nomatch hx)⟩
    | announce h hw =>
      refine inv_step hi h rfl rfl (by simp [hw, DocState.at, announced]) (fun hp => hi.exclusive (Nat.lt_of_lt_of_le hp (holdsWrite_set h (Nat.le_refl 0)))) ?_ (.inl fun _ => nofun) ?_
      · rw [assigned_quiet (by intro d h; cases h)]; exact hi.reg
      · exact threadOk_same (ok _ _ h) rfl (fun _ _ => ⟨nofun, nofun⟩) fun pre post c _ _ hs => nothingBy_snoc hs _ fun _ _ => nofun
    | lock h hr =>
      refine inv_step hi h rfl rfl rfl (fun _ => hr) ?_ (.inl fun _ => nofun) ?_
      · rw [assigned_quiet (by intro d h; cases h)]; exact hi.reg
      · exact threadOk_same (ok _ _ h) rfl (fun _ _ => ⟨nofun, nofun⟩) fun pre post c _ _ hs => nothingBy_snoc hs _ fun _ _ => nofun
    | assign h =>
      rename_i t d
      have hr : s1.readers = 0 := hi.exclusive (Nat.lt_of_lt_of_le Nat.zero_lt_one (tally_le holdsWrite _ _ _ h))
      refine inv_step hi h rfl rfl rfl (fun _ => hr) ?_ (.inr (no_reader hi hr)) ?_
      · rw [assigned_append]
        simp [DocState.at, hi.reg, assigned, registryOf]
      · refine threadOk_same (ok _ _ h) rfl (fun _ _ => ⟨nofun, nofun⟩) fun pre post c _ _ hs => ?_
        exact ⟨rfl, post, [], rfl, hs, fun _ hx => (nomatch hx)⟩
    | unlock h =>
      have ha := tally_le announced _ _ _ h
      have hw : s1.writer = true := by
        have := hi.writer
        cases hw : s1.writer with
        | true => rfl
        | false => rw [hw] at this; simp [announced] at this ha; omega
      refine inv_step hi h rfl rfl (by simp [hw, DocState.at, announced]) (fun hp => hi.exclusive (Nat.lt_of_lt_of_le hp (holdsWrite_set h (Nat.zero_le _)))) ?_ (.inl fun _ => nofun) ?_
      · rw [assigned_quiet (by intro d h; cases h)]; exact hi.reg
      · exact threadOk_same (ok _ _ h) rfl (fun _ _ => ⟨nofun, nofun⟩) fun pre post c _ _ hs => takesEffect_snoc (pre := pre) (c := .register _) (a := .done) hs _ (by intro _ d h; cases h)
    | retRegister h =>
      refine inv_step hi h rfl rfl rfl (fun hp => hi.exclusive (Nat.lt_of_lt_of_le hp (holdsWrite_set h (Nat.le_refl 0)))) ?_ (.inl fun _ => nofun) ?_
      · rw [assigned_quiet (by intro d h; cases h)]; exact hi.reg
      · exact fun c hc => (nomatch hc)
    | rlock h hw =>
      refine inv_step hi h rfl rfl rfl (fun hp => absurd hp ?_) ?_ (.inl fun _ => nofun) ?_
      · exact Nat.not_lt.mpr (Nat.le_trans (holdsWrite_set (s := s1) h (Nat.le_refl 0)) (Nat.le_of_eq (no_writer hi hw)))
      · rw [assigned_quiet (by intro d h; cases h)]; exact hi.reg
      · exact threadOk_same (ok _ _ h) rfl (fun _ _ => ⟨nofun, nofun⟩) fun pre post c _ _ hs =>
          ⟨nothingBy_snoc hs _ fun _ _ => nofun, List.nodup_nil, fun _ hx => (nomatch hx)⟩
    | look h =>
      refine inv_step hi h rfl rfl rfl (fun hp => hi.exclusive (Nat.lt_of_lt_of_le hp (holdsWrite_set h (Nat.le_refl 0)))) ?_ (.inl fun _ => nofun) ?_
      · rw [assigned_quiet (by intro d h; cases h)]; exact hi.reg
      · refine threadOk_same (ok _ _ h) rfl (fun _ _ => ⟨nofun, nofun⟩) fun pre post c _ _ hs => ⟨nothingBy_snoc hs.1 _ fun _ _ => nofun, ?_⟩
        rw [assigned_quiet (by intro d h; cases h), hi.reg]
        exact ⟨_, rfl, fun d => C54_lookup _ _ d⟩
    | count h =>
      refine inv_step hi h rfl rfl rfl (fun hp => hi.exclusive (Nat.lt_of_lt_of_le hp (holdsWrite_set h (Nat.le_refl 0)))) ?_ (.inl fun _ => nofun) ?_
      · rw [assigned_quiet (by intro d h; cases h)]; exact hi.reg
      · refine threadOk_same (ok _ _ h) rfl (fun _ _ => ⟨nofun, nofun⟩) fun pre post c _ _ hs => ⟨nothingBy_snoc hs.1 _ fun _ _ => nofun, ?_⟩
        rw [assigned_quiet (by intro d h; cases h), hi.reg]
        exact count_right _
    | visit h hq hd hn =>
      refine inv_step hi h rfl rfl rfl (fun hp => hi.exclusive (Nat.lt_of_lt_of_le hp (holdsWrite_set h (Nat.le_refl 0)))) ?_ (.inl fun _ => nofun) ?_
      · rw [assigned_quiet (by intro d h; cases h)]; exact hi.reg
      · refine threadOk_same (ok _ _ h) rfl (fun _ _ => ⟨nofun, nofun⟩) fun pre post c _ _ hs => ⟨nothingBy_snoc hs.1 _ fun _ _ => nofun, ?_, ?_⟩
        · rw [List.map_append, List.nodup_append]
          refine ⟨hs.2.1, by simp, ?_⟩
          intro a ha b hb
          obtain ⟨x, hx, rfl⟩ := List.mem_map.mp ha
          have : b = _ := List.mem_singleton.mp hb
          rw [this]
          exact hn x hx
        · rw [assigned_quiet (by intro d h; cases h)]
          intro x hx
          rcases List.mem_append.mp hx with hx | hx
          · exact hs.2.2 x hx
          · rw [List.mem_singleton.mp hx, ← hi.reg]; exact hd
    | compute h hend hc =>
      refine inv_step hi h rfl rfl rfl (fun hp => hi.exclusive (Nat.lt_of_lt_of_le hp (holdsWrite_set h (Nat.le_refl 0)))) ?_ (.inl fun _ => nofun) ?_
      · rw [assigned_quiet (by intro d h; cases h)]; exact hi.reg
      · refine threadOk_same (ok _ _ h) rfl (fun _ _ => ⟨nofun, nofun⟩) fun pre post c _ _ hs => ⟨nothingBy_snoc hs.1 _ fun _ _ => nofun, ?_⟩
        rw [assigned_quiet (by intro d h; cases h)]
        rw [hi.reg] at hend
        exact computes_right (seen_perm hs.2.1 hs.2.2 hend) hc
    | runlock h =>
      have hone := tally_le holdsRead _ _ _ h
      refine inv_step hi h rfl ?_ rfl (fun hp => ?_) ?_ (.inl fun _ => nofun) ?_
      · have := hi.readers
        simp [DocState.at, holdsRead] at this hone ⊢
        omega
      · have : s1.readers = 0 := hi.exclusive (Nat.lt_of_lt_of_le hp (holdsWrite_set h (Nat.le_refl 0)))
        simp [DocState.at, this]
      · rw [assigned_quiet (by intro d h; cases h)]; exact hi.reg
      · refine threadOk_same (ok _ _ h) rfl (fun _ _ => ⟨nofun, nofun⟩) fun pre post c ht hcc hs => ?_
        cases hcc
        exact ⟨nothingBy_snoc hs.1 _ fun _ _ => nofun, post, [_], rfl, ht ▸ hs.2⟩
    | retQuery h =>
      refine inv_step hi h rfl rfl rfl (fun hp => hi.exclusive (Nat.lt_of_lt_of_le hp (holdsWrite_set h (Nat.le_refl 0)))) ?_ (.inl fun _ => nofun) ?_
      · rw [assigned_quiet (by intro d h; cases h)]; exact hi.reg
      · exact fun c hc => (nomatch hc)

/-! ### The theorems -/

/-- The map is never changed by one goroutine while another one looks at it or changes it (which would end a Go program). -/
theorem C90_exclusion (n : Nat) (trace : List (Nat × DocAct)) (s : DocState) (h : DocRun (docStart n) trace s) (t u : Nat) (p q : DocPhase)
    (ht : s.threads[t]? = some p) (hu : s.threads[u]? = some q) (hne : t ≠ u) (hp : Changing p) : ¬ Changing q ∧ ¬ Looking q := by
  have hi := inv_run h
  cases p with
  | writing d =>
    have hr : s.readers = 0 := hi.exclusive (Nat.lt_of_lt_of_le Nat.zero_lt_one (tally_le holdsWrite _ _ _ ht))
    have h2 := tally_two announced _ _ _ _ _ ht hu hne
    have h3 := hi.writer
    have h4 := no_reader hi hr u q hu
    constructor
    · intro hq
      cases q with
      | writing e =>
        simp only [announced] at h2
        split at h3 <;> omega
      | _ => exact hq
    · intro hq
      cases q with
      | reading e => cases h4
      | _ => exact hq
  | _ => exact hp.elim

/-- Every call that returns has taken effect at one moment between its start and its return: whatever the interleaving, the answers are those
of some order in which the calls are made one after the other, and that order respects which call was over before another one began. -/
theorem C90_linearizable (n : Nat) (trace : List (Nat × DocAct)) (s : DocState) (h : DocRun (docStart n) trace s) : Linearizable trace := by
  induction h with
  | nil =>
    intro before t c a after he
    simp at he
  | snoc hr hs ih =>
    rename_i s1 s2 trace e
    intro before t c a after he
    rcases List.eq_nil_or_concat after with rfl | ⟨after', x, rfl⟩
    · obtain ⟨rfl, rfl⟩ : trace = before ∧ e = (t, .ret c a) := by simpa using List.append_inj' he rfl
      have hi := inv_run hr
      cases hs with
      | retRegister hp => exact hi.threads _ _ hp _ rfl
      | retQuery hp => exact hi.threads _ _ hp _ rfl
    · have h2 : trace ++ [e] = (before ++ (t, .ret c a) :: after') ++ [x] := by rw [he]; simp
      exact ih before t c a after' (List.append_inj' h2 rfl).1

/-- Nothing is registered behind anyone's back: every registration is made by a goroutine that has called RegisterDocumentation with it, has
not returned from that call, and has not made it before. -/
theorem C90_registrations (n : Nat) (trace : List (Nat × DocAct)) (s : DocState) (h : DocRun (docStart n) trace s)
    (before after : List (Nat × DocAct)) (t : Nat) (d : FunctionDoc) (he : trace = before ++ (t, .assign d) :: after) :
    ∃ pre post, before = pre ++ (t, .call (.register d)) :: post ∧ NoOtherCall t post ∧ NothingBy t post := by
  induction h generalizing before after with
  | nil => simp at he
  | snoc hr hs ih =>
    rename_i s1 s2 trace e
    rcases List.eq_nil_or_concat after with rfl | ⟨after', x, rfl⟩
    · obtain ⟨rfl, rfl⟩ : trace = before ∧ e = (t, .assign d) := by simpa using List.append_inj' he rfl
      have hi := inv_run hr
      cases hs with
      | assign hp => exact hi.threads _ _ hp _ rfl
    · have h2 : trace ++ [e] = (before ++ (t, .assign d) :: after') ++ [x] := by rw [he]; simp
      exact ih before after' (List.append_inj' h2 rfl).1

/-- What is registered at the end: for each name, what was registered last under it. -/
theorem C90_registry (n : Nat) (trace : List (Nat × DocAct)) (s : DocState) (h : DocRun (docStart n) trace s) (d : FunctionDoc) :
    d ∈ s.reg ↔ Registered (assigned trace) d := by
  rw [(inv_run h).reg, C54_registry]

/-- The number of functions is the number of different names. -/
theorem C90_count (calls : List FunctionDoc) (k : Nat) : RightAnswer calls .count (.number k) ↔ k = (registryOf calls).length := by
  constructor
  · rintro ⟨names, hk, hn, hm⟩
    obtain ⟨names', hk', hn', hm'⟩ := count_right calls
    have : names.Perm names' := (List.perm_ext_iff_of_nodup hn hn').mpr fun x => by rw [hm, hm']
    cases hk
    rw [this.length_eq]
    exact (DocAnswer.number.inj hk').symm
  · rintro rfl
    exact count_right calls

/-! ### Nobody waits for ever -/

/-- The value behind the loop always exists. -/
theorem computes_exists (q : DocQuery) (hq : q.loops = true) (seen : List FunctionDoc) : ∃ a, Computes q seen a := by
  cases q with
  | byName n => cases hq
  | count => cases hq
  | all => obtain ⟨out, h⟩ := sorted_exists seen; exact ⟨_, out, h, rfl⟩
  | byCategory c => obtain ⟨out, h⟩ := sorted_exists (seen.filter fun d => d.category = c); exact ⟨_, out, h, rfl⟩
  | categories =>
    obtain ⟨keys, hk⟩ := mapKeys_exists ((seen.map (·.category)).filter fun c => c ≠ [])
    obtain ⟨out, hp, hs⟩ : ∃ out : List Bytes, out.Perm keys ∧ out.Pairwise fun a b => ¬ b < a := by
      clear hk
      induction keys with
      | nil => exact ⟨[], .refl _, .nil⟩
      | cons k ks ih =>
        obtain ⟨out, hp, hs⟩ := sorted_exists ((k :: ks).map fun n => ⟨n, [], [], [], [], [], []⟩)
        refine ⟨out.map (·.name), ?_, ?_⟩
        · have := hp.map (·.name)
          simpa [List.map_map, Function.comp_def] using this
        · rw [List.pairwise_map]; exact hs
    exact ⟨_, keys, out, hk, hp, hs, rfl⟩

/-- A goroutine that reads the map can go on. -/
theorem reading_goes_on (s : DocState) (t : Nat) (q : DocQuery) (seen : List FunctionDoc) (h : s.threads[t]? = some (.reading q seen)) :
    ∃ e s', DocStep s e s' ∧ ∀ c, e.2 ≠ .call c := by
  by_cases hq : q.loops = true
  · by_cases hd : ∀ d ∈ s.reg, ∃ x ∈ seen, x.name = d.name
    · obtain ⟨a, ha⟩ := computes_exists q hq seen
      exact ⟨_, _, .compute h hd ha, fun _ => nofun⟩
    · obtain ⟨d, hd⟩ := Classical.not_forall.mp hd
      obtain ⟨hm, hn⟩ := Classical.not_imp.mp hd
      exact ⟨_, _, .visit h hq hm fun x hx he => hn ⟨x, hx, he⟩, fun _ => nofun⟩
  · cases q with
    | byName n => exact ⟨_, _, .look h, fun _ => nofun⟩
    | count => exact ⟨_, _, .count h, fun _ => nofun⟩
    | _ => exact absurd rfl hq

/-- As long as a call has not returned, some goroutine in a call can take a step: no deadlock. -/
theorem C90_no_deadlock (n : Nat) (trace : List (Nat × DocAct)) (s : DocState) (h : DocRun (docStart n) trace s) (t : Nat) (p : DocPhase)
    (ht : s.threads[t]? = some p) (hp : p ≠ .idle) : ∃ e s', DocStep s e s' ∧ ∀ c, e.2 ≠ .call c := by
  have hi := inv_run h
  -- someone who reads
  have reader : s.readers ≠ 0 → ∃ e s', DocStep s e s' ∧ ∀ c, e.2 ≠ .call c := by
    intro hr
    have := hi.readers
    obtain ⟨u, q, hu, hq⟩ := tally_pos holdsRead s.threads (by omega)
    cases q with
    | reading q seen => exact reading_goes_on s u q seen hu
    | answered q a => exact ⟨_, _, .runlock hu, fun _ => nofun⟩
    | _ => exact absurd hq (by simp [holdsRead])
  -- someone who has announced himself
  have writer : s.writer = true → ∃ e s', DocStep s e s' ∧ ∀ c, e.2 ≠ .call c := by
    intro hw
    have := hi.writer
    rw [hw] at this
    obtain ⟨u, q, hu, hq⟩ := tally_pos announced s.threads (by simp at this; omega)
    cases q with
    | waits d =>
      by_cases hr : s.readers = 0
      · exact ⟨_, _, .lock hu hr, fun _ => nofun⟩
      · exact reader hr
    | writing d => exact ⟨_, _, .assign hu, fun _ => nofun⟩
    | written d => exact ⟨_, _, .unlock hu, fun _ => nofun⟩
    | _ => exact absurd hq (by simp [announced])
  cases p with
  | idle => exact absurd rfl hp
  | wants d =>
    cases hw : s.writer with
    | true => exact writer hw
    | false => exact ⟨_, _, .announce ht hw, fun _ => nofun⟩
  | waits d =>
    by_cases hr : s.readers = 0
    · exact ⟨_, _, .lock ht hr, fun _ => nofun⟩
    · exact reader hr
  | writing d => exact ⟨_, _, .assign ht, fun _ => nofun⟩
  | written d => exact ⟨_, _, .unlock ht, fun _ => nofun⟩
  | stored d => exact ⟨_, _, .retRegister ht, fun _ => nofun⟩
  | asks q =>
    cases hw : s.writer with
    | true => exact writer hw
    | false => exact ⟨_, _, .rlock ht hw, fun _ => nofun⟩
  | reading q seen => exact reading_goes_on s t q seen ht
  | answered q a => exact ⟨_, _, .runlock ht, fun _ => nofun⟩
  | released q a => exact ⟨_, _, .retQuery ht, fun _ => nofun⟩

/-- Has yet to make its registration. -/
def toMake : DocPhase → Nat
  | .wants _ => 1
  | .waits _ => 1
  | .writing _ => 1
  | _ => 0

/-- How many steps a goroutine has before it if there are at most `k` entries to visit. -/
def stepsLeft (k : Nat) : DocPhase → Nat
  | .idle => 0
  | .wants _ => 5
  | .waits _ => 4
  | .writing _ => 3
  | .written _ => 2
  | .stored _ => 1
  | .asks _ => 4 + k
  | .reading _ seen => 3 + (k - seen.length)
  | .answered _ _ => 2
  | .released _ _ => 1

theorem length_le_of_names {a b : List Bytes} (hn : a.Nodup) (h : ∀ x ∈ a, x ∈ b) : a.length ≤ b.length := by
  induction a generalizing b with
  | nil => exact Nat.zero_le _
  | cons x xs ih =>
    have hx : x ∈ b := h x (List.mem_cons_self ..)
    have := ih (b := b.erase x) (List.nodup_cons.mp hn).2 fun y hy =>
      (List.mem_erase_of_ne (fun (e : y = x) => (List.nodup_cons.mp hn).1 (e ▸ hy))).mpr (h y (List.mem_cons_of_mem _ hy))
    rw [List.length_erase_of_mem hx] at this
    have := List.length_pos_of_mem hx
    simp only [List.length_cons]
    omega

theorem nearer {s s' : DocState} {t : Nat} {p p' : DocPhase} {k : Nat} (h : s.threads[t]? = some p) (ht : s'.threads = s.threads.set t p')
    (hg : s'.reg.length = s.reg.length) (hm : toMake p' = toMake p) (hl : stepsLeft k p' < stepsLeft k p)
    (hk : s.reg.length + tally toMake s.threads ≤ k) :
    s'.reg.length + tally toMake s'.threads ≤ k ∧ tally (stepsLeft k) s'.threads < tally (stepsLeft k) s.threads := by
  have h1 := tally_set toMake _ _ _ p' h
  have h2 := tally_set (stepsLeft k) _ _ _ p' h
  rw [ht, hg]
  omega

/-- A step that is not a new call brings the end nearer. -/
theorem step_nearer {trace : List (Nat × DocAct)} {s s' : DocState} {e : Nat × DocAct} {k : Nat} (hi : DocInv trace s) (hs : DocStep s e s')
    (hc : ∀ c, e.2 ≠ .call c) (hk : s.reg.length + tally toMake s.threads ≤ k) :
    s'.reg.length + tally toMake s'.threads ≤ k ∧ tally (stepsLeft k) s'.threads < tally (stepsLeft k) s.threads := by
  cases hs with
  | callRegister h => exact absurd rfl (hc _)
  | callQuery h => exact absurd rfl (hc _)
  | visit h hq hd hn =>
    rename_i t q seen d
    have h1 := tally_set toMake _ _ _ (.reading q (seen ++ [d])) h
    have h2 := tally_set (stepsLeft k) _ _ _ (.reading q (seen ++ [d])) h
    have hlen : seen.length + 1 ≤ s.reg.length := by
      obtain ⟨pre, post, -, -, -, hnd, hsub⟩ := hi.threads _ _ h _ rfl
      rw [← hi.reg] at hsub
      have hnd' : ((seen ++ [d]).map (·.name)).Nodup := by
        rw [List.map_append, List.nodup_append]
        refine ⟨hnd, by simp, ?_⟩
        intro a ha b hb
        obtain ⟨x, hx, rfl⟩ := List.mem_map.mp ha
        have : b = _ := List.mem_singleton.mp hb
        rw [this]
        exact hn x hx
      have hsub' : ∀ x ∈ (seen ++ [d]).map (·.name), x ∈ s.reg.map (·.name) := by
        intro x hx
        obtain ⟨y, hy, rfl⟩ := List.mem_map.mp hx
        rcases List.mem_append.mp hy with hy | hy
        · exact List.mem_map_of_mem (hsub y hy)
        · rw [List.mem_singleton.mp hy]; exact List.mem_map_of_mem hd
      have := length_le_of_names hnd' hsub'
      simpa using this
    simp only [DocState.at, toMake, stepsLeft, List.length_append, List.length_cons, List.length_nil] at *
    omega
  | assign h =>
    rename_i t d
    have h1 := tally_set toMake _ _ _ (.written d) h
    have h2 := tally_set (stepsLeft k) _ _ _ (.written d) h
    have h3 : (s.reg.register d).length ≤ s.reg.length + 1 := by
      simp only [Registry.register, List.length_cons]
      have := List.length_filter_le (fun x : FunctionDoc => decide (x.name ≠ d.name)) s.reg
      omega
    simp only [DocState.at, toMake, stepsLeft] at *
    omega
  | announce h hw => exact nearer h rfl rfl rfl (by simp only [stepsLeft, List.length_nil]; omega) hk
  | lock h hr => exact nearer h rfl rfl rfl (by simp only [stepsLeft, List.length_nil]; omega) hk
  | unlock h => exact nearer h rfl rfl rfl (by simp only [stepsLeft, List.length_nil]; omega) hk
  | retRegister h => exact nearer h rfl rfl rfl (by simp only [stepsLeft, List.length_nil]; omega) hk
  | rlock h hw => exact nearer h rfl rfl rfl (by simp only [stepsLeft, List.length_nil]; omega) hk
  | look h => exact nearer h rfl rfl rfl (by simp only [stepsLeft, List.length_nil]; omega) hk
  | count h => exact nearer h rfl rfl rfl (by simp only [stepsLeft, List.length_nil]; omega) hk
  | compute h _ _ => exact nearer h rfl rfl rfl (by simp only [stepsLeft, List.length_nil]; omega) hk
  | runlock h => exact nearer h rfl rfl rfl (by simp only [stepsLeft, List.length_nil]; omega) hk
  | retQuery h => exact nearer h rfl rfl rfl (by simp only [stepsLeft, List.length_nil]; omega) hk

theorem doc_run_append {s s1 s2 : DocState} {a b : List (Nat × DocAct)} (h : DocRun s a s1) (h' : DocRun s1 b s2) : DocRun s (a ++ b) s2 := by
  induction h' with
  | nil => simpa using h
  | snoc _ hs ih => rw [← List.append_assoc]; exact .snoc ih hs

/-- Without new calls the goroutines are soon at rest: from any moment on there is a bound on the number of further actions, whatever the
scheduler does. -/
theorem C90_terminates (n : Nat) (trace : List (Nat × DocAct)) (s : DocState) (h : DocRun (docStart n) trace s) :
    ∃ bound, ∀ more s', DocRun s more s' → NoCalls more → more.length ≤ bound := by
  refine ⟨tally (stepsLeft (s.reg.length + tally toMake s.threads)) s.threads, ?_⟩
  generalize hk : s.reg.length + tally toMake s.threads = k
  intro more s' hm hn
  suffices hh : s'.reg.length + tally toMake s'.threads ≤ k ∧
      more.length + tally (stepsLeft k) s'.threads ≤ tally (stepsLeft k) s.threads by omega
  induction hm with
  | nil => exact ⟨Nat.le_of_eq hk, by simp⟩
  | snoc hr hs ih =>
    obtain ⟨h1, h2⟩ := ih fun e he => hn e (List.mem_append_left _ he)
    have h3 := step_nearer (inv_run (doc_run_append h hr)) hs (hn _ (by simp)) h1
    refine ⟨h3.1, ?_⟩
    simp only [List.length_append, List.length_cons, List.length_nil]
    omega

/-- So every call returns: if no new calls are made and the goroutines go on as long as one of them can, they all end up outside. -/
theorem C90_all_return (n : Nat) (trace : List (Nat × DocAct)) (s : DocState) (h : DocRun (docStart n) trace s)
    (hstuck : ¬ ∃ e s', DocStep s e s' ∧ ∀ c, e.2 ≠ .call c) (t : Nat) (p : DocPhase) (ht : s.threads[t]? = some p) : p = .idle :=
  Classical.byContradiction fun hp => hstuck (C90_no_deadlock n trace s h t p ht hp)

/-- Once a registration has announced itself, no further question gets in before it is made: questions cannot keep it out for ever. -/
theorem C90_writer_comes_in (s s' : DocState) (more : List (Nat × DocAct)) (h : DocRun s more s') (hw : s.writer = true)
    (hno : ∀ e ∈ more, e.2 ≠ .unlock) : (∀ e ∈ more, e.2 ≠ .rlock) ∧ s'.readers ≤ s.readers := by
  suffices hh : s'.writer = true ∧ (∀ e ∈ more, e.2 ≠ .rlock) ∧ s'.readers ≤ s.readers from hh.2
  induction h with
  | nil => exact ⟨hw, fun _ hx => (nomatch hx), Nat.le_refl _⟩
  | snoc hr hs ih =>
    rename_i s1 s2 trace e
    obtain ⟨h1, h2, h3⟩ := ih fun e he => hno e (List.mem_append_left _ he)
    have he := hno e (by simp)
    have key : s2.writer = true ∧ e.2 ≠ .rlock ∧ s2.readers ≤ s1.readers := by
      cases hs with
      | unlock _ => exact absurd rfl he
      | rlock _ hw => rw [hw] at h1; cases h1
      | announce _ _ => exact ⟨rfl, nofun, Nat.le_refl _⟩
      | runlock _ => exact ⟨h1, nofun, Nat.sub_le _ _⟩
      | _ => exact ⟨h1, nofun, Nat.le_refl _⟩
    refine ⟨key.1, fun x hx => ?_, Nat.le_trans key.2.2 h3⟩
    rcases List.mem_append.mp hx with hx | hx
    · exact h2 x hx
    · rw [List.mem_singleton.mp hx]; exact key.2.1

/-! ### A concrete run -/

/-- Two goroutines: one registers `a` and then a second text for `a`, the other one lists everything in between. -/
def regDoc (summary : Bytes) : FunctionDoc := ⟨b! "a", summary, [], [], [], [], b! "editing"⟩

/-- The run: the question is asked before the second registration begins and answered while that one waits for the lock. -/
def regTrace : List (Nat × DocAct) :=
  [(0, .call (.register (regDoc b! "x"))), (0, .announce), (0, .lock), (0, .assign (regDoc b! "x")), (0, .unlock), (0, .ret (.register (regDoc b! "x")) .done),
   (1, .call (.query .all)), (1, .rlock), (0, .call (.register (regDoc b! "y"))), (0, .announce), (1, .visit (regDoc b! "x")), (1, .compute), (1, .runlock),
   (0, .lock), (0, .assign (regDoc b! "y")), (1, .ret (.query .all) (.docs [regDoc b! "x"]))]

theorem regTrace_runs : DocRun (docStart 2) regTrace
    { reg := [regDoc b! "y"], writer := true, readers := 0, threads := [.written (regDoc b! "y"), .idle] } := by
  have h0 : DocRun (docStart 2) [] (docStart 2) := .nil _
  have h1 := h0.snoc (.callRegister (t := 0) (d := regDoc b! "x") rfl)
  have h2 := h1.snoc (.announce (t := 0) (d := regDoc b! "x") rfl rfl)
  have h3 := h2.snoc (.lock (t := 0) (d := regDoc b! "x") rfl rfl)
  have h4 := h3.snoc (.assign (t := 0) (d := regDoc b! "x") rfl)
  have h5 := h4.snoc (.unlock (t := 0) (d := regDoc b! "x") rfl)
  have h6 := h5.snoc (.retRegister (t := 0) (d := regDoc b! "x") rfl)
  have h7 := h6.snoc (.callQuery (t := 1) (q := .all) rfl)
  have h8 := h7.snoc (.rlock (t := 1) (q := .all) rfl rfl)
  have h9 := h8.snoc (.callRegister (t := 0) (d := regDoc b! "y") rfl)
  have h10 := h9.snoc (.announce (t := 0) (d := regDoc b! "y") rfl rfl)
  have h11 := h10.snoc (.visit (t := 1) (q := .all) (seen := []) (d := regDoc b! "x") rfl rfl (by decide) (by simp))
  have h12 := h11.snoc (.compute (t := 1) (q := .all) (seen := [regDoc b! "x"]) (a := .docs [regDoc b! "x"]) rfl
    (by intro d hd; refine ⟨_, List.mem_singleton.mpr rfl, ?_⟩; have : d = regDoc b! "x" := by simpa [DocState.at, docStart, Registry.register] using hd
        rw [this]) ⟨_, ⟨.refl _, by simp⟩, rfl⟩)
  have h13 := h12.snoc (.runlock (t := 1) (q := .all) (a := .docs [regDoc b! "x"]) rfl)
  have h14 := h13.snoc (.lock (t := 0) (d := regDoc b! "y") rfl rfl)
  have h15 := h14.snoc (.assign (t := 0) (d := regDoc b! "y") rfl)
  have h16 := h15.snoc (.retQuery (t := 1) (q := .all) (a := .docs [regDoc b! "x"]) rfl)
  exact h16

/-- The theorems apply to it: the answer is the right one of the moment before the second registration. -/
example : Linearizable regTrace := C90_linearizable 2 _ _ regTrace_runs
example : RightAnswer [regDoc b! "x"] .all (.docs [regDoc b! "x"]) :=
  ⟨_, rfl, by simp [Alphabetical], fun d => by rw [← C54_registry]; simp [registryOf, Registry.register]⟩
example : ¬ RightAnswer [regDoc b! "x", regDoc b! "y"] .all (.docs [regDoc b! "x"]) := by
  rintro ⟨ds, he, -, hm⟩
  cases he
  have := (hm (regDoc b! "y")).mpr ((C54_registry _ _).mp (by decide))
  revert this
  decide
example : ∃ bound, ∀ more s', DocRun { reg := [regDoc b! "y"], writer := true, readers := 0, threads := [.written (regDoc b! "y"), .idle] } more s' →
    NoCalls more → more.length ≤ bound := C90_terminates 2 _ _ regTrace_runs

end Texted
