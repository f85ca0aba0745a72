import Verif.Lemmas.TgCommand
import Verif.Props.Docs
/-
Lists in the order of a choice, sorting, maps as lists of entries, and loops with an invariant: what the Go text of the documentation needs.
-/
set_option linter.unusedSectionVars false
namespace Texted

section
variable {α β : Type}

theorem inOrder_map (f : α → β) (l : List α) (idx : List Nat) : inOrder (l.map f) idx = (inOrder l idx).map f := by
  unfold inOrder
  rw [List.map_filterMap]
  congr 1
  funext i
  rw [List.getElem?_map]

theorem inOrder_range (l : List α) : inOrder l (List.range l.length) = l := by
  unfold inOrder
  induction l using List.reverseRecOn with
  | nil => rfl
  | append_singleton l a ih =>
    rw [List.length_append, List.length_singleton, List.range_succ, List.filterMap_append]
    congr 1
    · refine Eq.trans (List.filterMap_congr ?_) ih
      intro i hi
      rw [List.getElem?_append_left (List.mem_range.mp hi)]
    · simp

theorem inOrder_perm (l : List α) {idx : List Nat} (h : idx.Perm (List.range l.length)) : (inOrder l idx).Perm l := by
  have := h.filterMap fun i => l[i]?
  rw [show (List.range l.length).filterMap (fun i => l[i]?) = l from inOrder_range l] at this
  exact this

/-- Every order of things that differ can come out. -/
theorem inOrder_exists [DecidableEq α] {keys l : List α} (hk : keys.Perm l) (hn : l.Nodup) : ∃ idx : List Nat, idx.Perm (List.range l.length) ∧ inOrder l idx = keys := by
  refine ⟨keys.map fun k => l.idxOf k, ?_, ?_⟩
  · refine (hk.map _).trans (List.Perm.of_eq ?_)
    refine List.ext_getElem (by simp) fun i h₁ h₂ => ?_
    rw [List.getElem_map, List.getElem_range]
    exact hn.idxOf_getElem i _
  · unfold inOrder
    rw [List.filterMap_map]
    refine Eq.trans (List.filterMap_congr (g := some) ?_) (List.filterMap_some)
    intro k hk'
    have : k ∈ l := hk.mem_iff.mp hk'
    show l[l.idxOf k]? = some k
    rw [List.getElem?_eq_getElem (List.idxOf_lt_length_of_mem this), List.getElem_idxOf]

theorem insertBy_perm (key : α → Bytes) (a : α) : ∀ l, (insertBy key a l).Perm (a :: l)
  | [] => .refl _
  | m :: r => by
    unfold insertBy
    split
    · exact ((insertBy_perm key a r).cons m).trans (.swap a m r)
    · exact .refl _

theorem sortBy_perm (key : α → Bytes) : ∀ l, (sortBy key l).Perm l
  | [] => .refl _
  | a :: r => (insertBy_perm key a _).trans ((sortBy_perm key r).cons a)

theorem insertBy_sorted (key : α → Bytes) (a : α) : ∀ l, l.Pairwise (fun a b => ¬ key b < key a) → (insertBy key a l).Pairwise fun a b => ¬ key b < key a
  | [], _ => List.pairwise_singleton ..
  | m :: r, h => by
    rw [List.pairwise_cons] at h
    unfold insertBy
    split
    · rename_i hlt
      rw [List.pairwise_cons]
      refine ⟨fun b hb => ?_, insertBy_sorted key a r h.2⟩
      rcases List.mem_cons.mp ((insertBy_perm key a r).mem_iff.mp hb) with rfl | hb
      · exact bytes_lt_asymm hlt
      · exact h.1 b hb
    · rename_i hge
      rw [List.pairwise_cons]
      refine ⟨fun b hb => ?_, List.pairwise_cons.mpr h⟩
      rcases List.mem_cons.mp hb with rfl | hb
      · exact hge
      · intro hlt
        by_cases he : key a = key m
        · exact h.1 b hb (he ▸ hlt)
        · exact h.1 b hb (List.lt_trans hlt (bytes_lt_of_not _ _ hge he))

theorem sortBy_sorted (key : α → Bytes) : ∀ l, (sortBy key l).Pairwise fun a b => ¬ key b < key a
  | [] => .nil
  | a :: r => insertBy_sorted key a _ (sortBy_sorted key r)

/-- The keys of a map. -/
theorem putAt_keys (k : Bytes) (v : α) : ∀ m : List (Bytes × α), (putAt k v m).map (·.1) = if k ∈ m.map (·.1) then m.map (·.1) else m.map (·.1) ++ [k]
  | [] => rfl
  | p :: m => by
    unfold putAt
    by_cases h : p.1 = k
    · simp only [List.map_cons]
      rw [if_pos h, if_pos (by simp [h])]
      simp [h]
    · rw [if_neg h, List.map_cons, putAt_keys k v m]
      simp only [List.map_cons]
      by_cases hm : k ∈ m.map (·.1)
      · rw [if_pos hm, if_pos (List.mem_cons_of_mem _ hm)]
      · rw [if_neg hm, if_neg (by rw [List.mem_cons, not_or]; exact ⟨fun e => h e.symm, hm⟩)]; rfl

theorem putAt_nodup (k : Bytes) (v : α) (m : List (Bytes × α)) (h : (m.map (·.1)).Nodup) : ((putAt k v m).map (·.1)).Nodup := by
  rw [putAt_keys]
  split
  · exact h
  · rename_i hk
    rw [List.nodup_append]
    exact ⟨h, List.nodup_singleton _, fun a ha b hb => by rw [List.mem_singleton] at hb; subst hb; exact fun e => hk (e ▸ ha)⟩

theorem putAt_mem (k : Bytes) (v : α) (m : List (Bytes × α)) (c : Bytes) : c ∈ (putAt k v m).map (·.1) ↔ c = k ∨ c ∈ m.map (·.1) := by
  rw [putAt_keys]
  split
  · rename_i hk
    exact ⟨.inr, fun h => h.elim (fun e => e ▸ hk) id⟩
  · rw [List.mem_append, List.mem_singleton, or_comm]
end

theorem groupAt_putAt (k c : Bytes) (v : List FunctionDoc) : ∀ m, groupAt (putAt k v m) c = if c = k then v else groupAt m c
  | [] => by
    unfold putAt groupAt
    by_cases h : k = c
    · simp [h]
    · have h' : ¬ c = k := fun e => h e.symm
      simp [h, h']
  | p :: m => by
    have ih := groupAt_putAt k c v m
    unfold putAt
    by_cases h : p.1 = k
    · rw [if_pos h]
      unfold groupAt
      by_cases hc : k = c
      · simp [hc]
      · have h' : ¬ c = k := fun e => hc e.symm
        simp [hc, h, h']
    · rw [if_neg h]
      unfold groupAt at ih ⊢
      by_cases hc : p.1 = c
      · simp [hc, show ¬ c = k from fun e => h (hc.trans e)]
      · simp only [List.find?_cons, hc, decide_false]
        exact ih

theorem groupAt_mem {m : List (Bytes × List FunctionDoc)} (hn : (m.map (·.1)).Nodup) {p : Bytes × List FunctionDoc} (hp : p ∈ m) : groupAt m p.1 = p.2 := by
  induction m with
  | nil => exact nomatch hp
  | cons q m ih =>
    rw [List.map_cons, List.nodup_cons] at hn
    rcases List.mem_cons.mp hp with rfl | hp
    · simp [groupAt]
    · have : ¬ q.1 = p.1 := fun e => hn.1 (e ▸ List.mem_map.mpr ⟨p, hp, rfl⟩)
      have ih := ih hn.2 hp
      unfold groupAt at ih ⊢
      simp only [List.find?_cons, this, decide_false]
      exact ih

/-- The groups that a loop over the functions builds (/repo/tools/texted_doc.go:176-183, /repo/commands/doc.go:145-152). -/
def groupsOf (dflt : Bytes) (docs : List FunctionDoc) (m : List (Bytes × List FunctionDoc)) : List (Bytes × List FunctionDoc) :=
  docs.foldl (fun m d => putAt (groupName dflt d) (groupAt m (groupName dflt d) ++ [d]) m) m

theorem groupsOf_nodup (dflt : Bytes) : ∀ docs m, (m.map (·.1)).Nodup → ((groupsOf dflt docs m).map (·.1)).Nodup
  | [], _, h => h
  | d :: ds, m, h => groupsOf_nodup dflt ds _ (putAt_nodup _ _ _ h)

theorem groupsOf_mem (dflt c : Bytes) : ∀ docs m, c ∈ (groupsOf dflt docs m).map (·.1) ↔ c ∈ docs.map (groupName dflt) ∨ c ∈ m.map (·.1)
  | [], m => by simp [groupsOf]
  | d :: ds, m => by
    show c ∈ (groupsOf dflt ds _).map (·.1) ↔ _
    rw [groupsOf_mem dflt c ds, putAt_mem, List.map_cons, List.mem_cons]
    constructor
    · rintro (h | h | h)
      · exact .inl (.inr h)
      · exact .inl (.inl h)
      · exact .inr h
    · rintro ((h | h) | h)
      · exact .inr (.inl h)
      · exact .inl h
      · exact .inr (.inr h)

theorem groupsOf_at (dflt c : Bytes) : ∀ docs m, groupAt (groupsOf dflt docs m) c = groupAt m c ++ docs.filter fun d => groupName dflt d = c
  | [], m => by simp [groupsOf]
  | d :: ds, m => by
    show groupAt (groupsOf dflt ds _) c = _
    rw [groupsOf_at dflt c ds, groupAt_putAt, List.filter_cons]
    by_cases h : groupName dflt d = c
    · simp [h]
    · have h' : ¬ c = groupName dflt d := fun e => h e.symm
      simp [h, h']

/-- The keys of the groups are those of the model's map. -/
theorem groupsOf_keys (dflt : Bytes) (docs : List FunctionDoc) (keys : List Bytes) :
    MapKeys (docs.map (groupName dflt)) keys ↔ keys.Perm ((groupsOf dflt docs []).map (·.1)) := by
  have hn : ((groupsOf dflt docs []).map (·.1)).Nodup := groupsOf_nodup dflt docs [] List.nodup_nil
  constructor
  · rintro ⟨h, hm⟩
    refine (List.perm_ext_iff_of_nodup h hn).mpr fun k => ?_
    rw [hm, groupsOf_mem]
    simp
  · intro h
    refine ⟨h.nodup_iff.mpr hn, fun k => ?_⟩
    rw [h.mem_iff, groupsOf_mem]
    simp

section
variable [Ext] {α β : Type}

/-- A loop with an invariant. -/
theorem range_inv (Inv : β → TgSt → Prop) (step : β → α → β) (mk : α → TgV) (body : TgSt → TgOut) (i y : TgVar)
    (h : ∀ k a b st, Inv b st → ∃ st', body ((st.set i (.int k)).set y (mk a)) = .next st' ∧ Inv (step b a) st') :
    ∀ (l : List α) (k : Nat) (b : β) (st : TgSt), Inv b st → ∃ st', tgRange body i y k (l.map mk) st = .next st' ∧ Inv (l.foldl step b) st'
  | [], k, b, st, hi => ⟨st, rfl, hi⟩
  | a :: l, k, b, st, hi => by
    obtain ⟨st', e, hi'⟩ := h k a b st hi
    obtain ⟨st'', e', hi''⟩ := range_inv Inv step mk body i y h l (k + 1) (step b a) st' hi'
    refine ⟨st'', ?_, hi''⟩
    rw [List.map_cons, tgRange_cons, e]
    exact e'

/-- A loop over a map with an invariant. -/
theorem entries_inv (Inv : β → TgSt → Prop) (step : β → α → β) (mk : α → Bytes × TgV) (body : TgSt → TgOut) (i y : TgVar) (ok : α → Prop)
    (h : ∀ a b st, ok a → Inv b st → ∃ st', body ((st.set i (.str (mk a).1)).set y (mk a).2) = .next st' ∧ Inv (step b a) st') :
    ∀ (l : List α) (b : β) (st : TgSt), (∀ a ∈ l, ok a) → Inv b st → ∃ st', tgEntries body i y (l.map mk) st = .next st' ∧ Inv (l.foldl step b) st'
  | [], b, st, _, hi => ⟨st, rfl, hi⟩
  | a :: l, b, st, ho, hi => by
    obtain ⟨st', e, hi'⟩ := h a b st (ho a (List.mem_cons_self ..)) hi
    obtain ⟨st'', e', hi''⟩ := entries_inv Inv step mk body i y ok h l (step b a) st' (fun a ha => ho a (List.mem_cons_of_mem _ ha)) hi'
    refine ⟨st'', ?_, hi''⟩
    show ((body _).round _) = _
    rw [e]
    exact e'
end

theorem foldl_append {α β : Type} (g : α → List β) : ∀ (l : List α) (s : List β), l.foldl (fun s a => s ++ g a) s = s ++ l.flatMap g
  | [], s => by simp
  | a :: l, s => by simp [foldl_append g l, List.append_assoc]

theorem foldl_snoc {α : Type} : ∀ (l s : List α), l.foldl (fun s a => s ++ [a]) s = s ++ l
  | [], s => by simp
  | a :: l, s => by simp [foldl_snoc l, List.append_assoc]

end Texted
