import Verif.Spec.Memory
/-
C88: the list functions of the Go API.
-/
namespace Texted
open Spec

/-! ### Memory only grows -/

/-- Everything that was in memory still is. -/
def Grows (m m' : Mem) : Prop := m.cells <+: m'.cells ∧ m.arrays <+: m'.arrays

theorem Grows.refl (m : Mem) : Grows m m := ⟨List.prefix_rfl, List.prefix_rfl⟩
theorem Grows.trans {a b c : Mem} (h : Grows a b) (h' : Grows b c) : Grows a c := ⟨h.1.trans h'.1, h.2.trans h'.2⟩

theorem grows_new (m : Mem) (c : Cell) : Grows m (m.new c).2 := ⟨List.prefix_append _ _, List.prefix_rfl⟩
theorem grows_make (m : Mem) (xs : List (Option Ptr)) : Grows m (m.make xs).2 := ⟨List.prefix_rfl, List.prefix_append _ _⟩
theorem grows_empty (m : Mem) : Grows m m.newEmptyList.2 := (grows_make m []).trans (grows_new _ _)

theorem grows_call (m : Mem) (c : Making) : Grows m (m.call c).2 := by
  cases c with
  | symbol | string | number | listFrom => exact grows_new m _
  | list xs => cases xs with
    | nil => exact grows_new m _
    | cons x xs => exact (grows_make m _).trans (grows_new _ _)
  | emptyList => exact grows_empty m
  | rest l =>
    simp only [Mem.call, Mem.rest]
    split
    · exact grows_empty m
    · exact grows_new m _
  | append l x => exact (grows_make m _).trans (grows_new _ _)

theorem Grows.cell {m m' : Mem} (h : Grows m m') {p : Nat} {c : Cell} (hc : m.cells[p]? = some c) : m'.cells[p]? = some c := by
  obtain ⟨t, ht⟩ := h.1
  rw [← ht, List.getElem?_append_left (List.getElem?_eq_some_iff.1 hc).1]
  exact hc

theorem Grows.array {m m' : Mem} (h : Grows m m') {a : Nat} (ha : a < m.arrays.length) : m'.arrays.getD a [] = m.arrays.getD a [] := by
  obtain ⟨t, ht⟩ := h.2
  rw [← ht]
  simp [List.getD, List.getElem?_append_left ha]

theorem getD_beyond (as : List (List (Option Ptr))) {a : Nat} (h : ¬ a < as.length) : as.getD a [] = [] := by
  simp [List.getD, List.getElem?_eq_none (Nat.le_of_not_lt h)]

theorem Grows.seen {m m' : Mem} (h : Grows m m') {s : Window} (hs : InArray m s) : m'.window s = m.window s := by
  unfold Mem.window
  by_cases ha : s.array < m.arrays.length
  · rw [h.array ha]
  · obtain ⟨h1, h2⟩ := hs
    rw [getD_beyond _ ha] at h2
    have : s.len = 0 := by simp at h2; omega
    simp [this]

theorem Grows.inside {m m' : Mem} (h : Grows m m') {s : Window} (hs : InArray m s) : InArray m' s := by
  refine ⟨hs.1, ?_⟩
  by_cases ha : s.array < m.arrays.length
  · rw [h.array ha]; exact hs.2
  · have := hs.2
    rw [getD_beyond _ ha] at this
    simp at this
    omega

theorem nil_inside (m : Mem) : InArray m ⟨0, 0, 0, 0⟩ := ⟨Nat.le_refl 0, Nat.zero_le _⟩

theorem make_inside (m : Mem) (xs : List (Option Ptr)) : InArray (m.make xs).2 (m.make xs).1 := by
  refine ⟨Nat.le_refl _, ?_⟩
  simp [Mem.make, List.getD]

theorem make_window (m : Mem) (xs : List (Option Ptr)) : (m.make xs).2.window (m.make xs).1 = xs := by
  simp [Mem.make, Mem.window, List.getD]

theorem sound_new {m m' : Mem} (h : Sound m) (g : Grows m m') (hc : m'.cells = m.cells) {c : Cell} (hw : ∀ s, c = .list s → InArray m' s) :
    Sound (m'.new c).2 := by
  intro p s hp
  simp only [Mem.new] at hp
  have key : InArray m' s := by
    by_cases hlt : p < m'.cells.length
    · rw [List.getElem?_append_left hlt, hc] at hp
      exact g.inside (h p s hp)
    · rw [List.getElem?_append_right (Nat.le_of_not_lt hlt)] at hp
      obtain ⟨hx, hy⟩ := List.getElem?_eq_some_iff.1 hp
      simp at hx
      simp [hx] at hy
      exact hw s hy
  exact ⟨key.1, key.2⟩

theorem inside_elements {m : Mem} (h : Sound m) (l : Ptr) : InArray m (m.elements l) := by
  unfold Mem.elements
  split
  · rename_i s hs
    exact h l s hs
  · exact nil_inside m

theorem sound_call {m : Mem} (h : Sound m) (c : Making) (hc : ∀ s, c = .listFrom s → InArray m s) : Sound (m.call c).2 := by
  cases c with
  | symbol | string | number => exact sound_new h (Grows.refl m) rfl (by simp)
  | listFrom s => exact sound_new h (Grows.refl m) rfl fun t ht => by cases ht; exact hc s rfl
  | list xs => cases xs with
    | nil => exact sound_new h (Grows.refl m) rfl fun t ht => by cases ht; exact nil_inside m
    | cons x xs => exact sound_new h (grows_make m _) rfl fun t ht => by cases ht; exact make_inside m _
  | emptyList => exact sound_new h (grows_make m _) rfl fun t ht => by cases ht; exact make_inside m _
  | rest l =>
    simp only [Mem.call, Mem.rest]
    split
    · exact sound_new h (grows_make m _) rfl fun t ht => by cases ht; exact make_inside m _
    · refine sound_new h (Grows.refl m) rfl fun t ht => ?_
      cases ht
      obtain ⟨i1, i2⟩ := inside_elements h l
      exact ⟨by simp only; omega, by simp only; omega⟩
  | append l x => exact sound_new h (grows_make m _) rfl fun t ht => by cases ht; exact make_inside m _

theorem calls_grow {m : Mem} (h : Sound m) (cs : List Making) (hp : Possible m cs) : Grows m (m.calls cs) ∧ Sound (m.calls cs) := by
  induction cs generalizing m with
  | nil => exact ⟨Grows.refl m, h⟩
  | cons c cs ih =>
    obtain ⟨i1, i2⟩ := ih (sound_call h c hp.1) hp.2
    exact ⟨(grows_call m c).trans i1, i2⟩

mutual
theorem Grows.stands {m m' : Mem} (g : Grows m m') (h : Sound m) {x : Option Ptr} {v : Value} : Stands m x v → Stands m' x v
  | .sym hp => .sym (g.cell hp)
  | .str hp => .str (g.cell hp)
  | .num hp => .num (g.cell hp)
  | .list hp hs => .list (g.cell hp) (by rw [g.seen (h _ _ hp)]; exact Grows.standAll g h hs)
theorem Grows.standAll {m m' : Mem} (g : Grows m m') (h : Sound m) {xs : List (Option Ptr)} {vs : List Value} : StandAll m xs vs → StandAll m' xs vs
  | .nil => .nil
  | .cons a b => .cons (Grows.stands g h a) (Grows.standAll g h b)
end

/-- C88. Whatever a program makes with the functions of the API, whatever it had before stands for what it stood for before: no list changes. -/
theorem C88_nothing_changes (m : Mem) (h : Sound m) (cs : List Making) (hp : Possible m cs) (x : Option Ptr) (v : Value) (hx : Stands m x v) :
    Stands (m.calls cs) x v ∧ Sound (m.calls cs) :=
  ⟨(calls_grow h cs hp).1.stands h hx, (calls_grow h cs hp).2⟩

/-- Memory at the start is sound. -/
theorem sound_start : Sound ⟨[], []⟩ := fun p s h => by simp at h

theorem standAll_length {m : Mem} : ∀ {xs : List (Option Ptr)} {vs : List Value}, StandAll m xs vs → xs.length = vs.length
  | _, _, .nil => rfl
  | _, _, .cons _ h => by simp [standAll_length h]

theorem standAll_get {m : Mem} : ∀ {xs : List (Option Ptr)} {vs : List Value}, StandAll m xs vs → ∀ {i : Nat} {v : Value}, vs[i]? = some v →
    Stands m (xs.getD i none) v
  | _, _, .cons a _, 0, v, h => by simp at h; subst h; exact a
  | _, _, .cons _ b, i + 1, v, h => by simpa using standAll_get b (i := i) (by simpa using h)

theorem standAll_append {m : Mem} {ys : List (Option Ptr)} {us : List Value} (hy : StandAll m ys us) :
    ∀ {xs : List (Option Ptr)} {vs : List Value}, StandAll m xs vs → StandAll m (xs ++ ys) (vs ++ us)
  | _, _, .nil => hy
  | _, _, .cons a b => .cons a (standAll_append hy b)

theorem standAll_tail {m : Mem} {xs : List (Option Ptr)} {vs : List Value} (h : StandAll m xs vs) : StandAll m (xs.drop 1) (vs.drop 1) := by
  cases h with
  | nil => exact .nil
  | cons a b => exact b

theorem stands_list {m : Mem} {l : Ptr} {vs : List Value} (h : Stands m (some l) (.list vs)) :
    m.cells[l]? = some (.list (m.elements l)) ∧ StandAll m (m.window (m.elements l)) vs := by
  cases h with
  | @list _ s _ hp hs =>
    have : m.elements l = s := by rw [Mem.elements, hp]
    rw [this]
    exact ⟨hp, hs⟩

theorem window_length {m : Mem} {s : Window} (h : InArray m s) : (m.window s).length = s.len := by
  have h1 := h.1
  have h2 := h.2
  unfold Mem.window
  rw [List.length_take, List.length_drop]
  omega

theorem elements_len {m : Mem} (h : Sound m) {l : Ptr} {vs : List Value} (hl : Stands m (some l) (.list vs)) : (m.elements l).len = vs.length := by
  rw [← window_length (inside_elements h l), standAll_length (stands_list hl).2]

/-- C88. `Len` and `IsEmpty`. -/
theorem C88_len (m : Mem) (h : Sound m) (l : Ptr) (vs : List Value) (hl : Stands m (some l) (.list vs)) :
    m.len l = vs.length ∧ (m.isEmpty l = true ↔ vs = []) := by
  refine ⟨elements_len h hl, ?_⟩
  simp [Mem.isEmpty, elements_len h hl]

/-- C88. `Get`, for every index: the element there, nil outside the list. -/
theorem C88_get (m : Mem) (h : Sound m) (l : Ptr) (vs : List Value) (hl : Stands m (some l) (.list vs)) (i : Int) :
    (∀ v, 0 ≤ i → vs[i.toNat]? = some v → Stands m (m.get l i) v) ∧ (i < 0 ∨ i ≥ vs.length → m.get l i = none) := by
  rw [Mem.get, elements_len h hl]
  constructor
  · intro v hi hv
    have := (List.getElem?_eq_some_iff.1 hv).1
    rw [if_neg (by omega)]
    exact standAll_get (stands_list hl).2 hv
  · intro hi
    rw [if_pos hi]

/-- C88. `First`: the first element, nil for the empty list. -/
theorem C88_first (m : Mem) (h : Sound m) (l : Ptr) (vs : List Value) (hl : Stands m (some l) (.list vs)) :
    (∀ v rest, vs = v :: rest → Stands m (m.first l) v) ∧ (vs = [] → m.first l = none) := by
  rw [Mem.first, elements_len h hl]
  constructor
  · rintro v rest rfl
    rw [if_neg (by simp)]
    exact standAll_get (i := 0) (stands_list hl).2 rfl
  · rintro rfl
    rfl

theorem new_cell (m : Mem) (c : Cell) : (m.new c).2.cells[(m.new c).1]? = some c := by simp [Mem.new]

theorem stands_new_list {m : Mem} (h : Sound m) {s : Window} {vs : List Value} (hs : InArray m s) (hv : StandAll m (m.window s) vs) :
    Stands (m.new (.list s)).2 (some (m.new (.list s)).1) (.list vs) := by
  refine .list (new_cell m _) ?_
  rw [(grows_new m _).seen hs]
  exact (grows_new m _).standAll h hv

theorem sound_make {m : Mem} (h : Sound m) (xs : List (Option Ptr)) : Sound (m.make xs).2 :=
  fun p s hp => (grows_make m xs).inside (h p s hp)

theorem stands_made {m : Mem} (h : Sound m) {xs : List (Option Ptr)} {vs : List Value} (hv : StandAll m xs vs) :
    Stands ((m.make xs).2.new (.list (m.make xs).1)).2 (some ((m.make xs).2.new (.list (m.make xs).1)).1) (.list vs) :=
  stands_new_list (sound_make h xs) (make_inside m xs) (by rw [make_window]; exact (grows_make m xs).standAll h hv)

/-- C88. `Rest`: a list of all elements but the first (the empty list for the empty list). -/
theorem C88_rest (m : Mem) (h : Sound m) (l : Ptr) (vs : List Value) (hl : Stands m (some l) (.list vs)) :
    Stands (m.rest l).2 (some (m.rest l).1) (.list (vs.drop 1)) := by
  obtain ⟨hc, hs⟩ := stands_list hl
  have hlen := elements_len h hl
  simp only [Mem.rest]
  split
  · rw [List.drop_eq_nil_of_le (by omega)]
    exact stands_made h .nil
  · have hi := inside_elements h l
    refine stands_new_list h ⟨by have := hi.1; simp only; omega, by have := hi.1; have := hi.2; simp only; omega⟩ ?_
    have : m.window ⟨(m.elements l).array, (m.elements l).off + 1, (m.elements l).len - 1, (m.elements l).cap - 1⟩ = (m.window (m.elements l)).drop 1 := by
      simp only [Mem.window, List.drop_take, List.drop_drop]
    rw [this]
    exact standAll_tail hs

/-- C88. `Append`: a list of all elements and the new one. -/
theorem C88_append (m : Mem) (h : Sound m) (l : Ptr) (vs : List Value) (hl : Stands m (some l) (.list vs)) (x : Option Ptr) (v : Value)
    (hx : Stands m x v) : Stands (m.append l x).2 (some (m.append l x).1) (.list (vs ++ [v])) :=
  stands_made h (standAll_append (.cons hx .nil) (stands_list hl).2)

/-- C88. `NewList` of arguments, `NewEmptyList`, `NewList` of a slice. -/
theorem C88_new_list (m : Mem) (h : Sound m) :
    (∀ xs vs, StandAll m xs vs → Stands (m.newList xs).2 (some (m.newList xs).1) (.list vs)) ∧
    Stands m.newEmptyList.2 (some m.newEmptyList.1) (.list []) ∧
    (∀ s vs, InArray m s → StandAll m (m.window s) vs → Stands (m.newListFrom s).2 (some (m.newListFrom s).1) (.list vs)) := by
  refine ⟨fun xs vs hv => ?_, stands_made h .nil, fun s vs hs hv => stands_new_list h hs hv⟩
  cases hv with
  | nil => exact stands_new_list h (nil_inside m) (by simp [Mem.window]; exact .nil)
  | cons a b => exact stands_made h (.cons a b)

/-! ### Who shares with whom -/

theorem modify_getD (as : List (List (Option Ptr))) (a b : Nat) (f : List (Option Ptr) → List (Option Ptr)) (hf : f [] = []) :
    (as.modify a f).getD b [] = if b = a then f (as.getD b []) else as.getD b [] := by
  simp only [List.getD, List.getElem?_modify]
  by_cases h : a = b
  · subst h
    cases as[a]? <;> simp [hf]
  · rw [if_neg (fun e => h e.symm)]
    cases as[b]? <;> simp [h]

theorem assign_other {m : Mem} {s w : Window} (h : w.array ≠ s.array) (i : Nat) (y : Option Ptr) : (m.assign s i y).window w = m.window w := by
  unfold Mem.assign
  split
  · simp only [Mem.window]
    rw [modify_getD _ _ _ _ (by simp), if_neg h]
  · rfl

theorem assign_none {m : Mem} {s w : Window} (h : w.len = 0) (i : Nat) (y : Option Ptr) : (m.assign s i y).window w = m.window w := by
  simp [Mem.window, h]

theorem inside_old {m : Mem} {w : Window} (h : InArray m w) : w.array < m.arrays.length ∨ w.len = 0 := by
  by_cases ha : w.array < m.arrays.length
  · exact .inl ha
  · obtain ⟨h1, h2⟩ := h
    rw [getD_beyond _ ha] at h2
    simp at h2
    exact .inr (by omega)

theorem append_elements (m : Mem) (l : Ptr) (x : Option Ptr) :
    (m.append l x).2.elements (m.append l x).1 =
      ⟨m.arrays.length, 0, (m.window (m.elements l) ++ [x]).length, (m.window (m.elements l) ++ [x]).length⟩ := by
  simp [Mem.append, Mem.elements, Mem.new, Mem.make]

theorem append_window (m : Mem) (l : Ptr) (x : Option Ptr) :
    (m.append l x).2.window ((m.append l x).2.elements (m.append l x).1) = m.window (m.elements l) ++ [x] := by
  rw [append_elements]
  exact make_window m _

theorem grows_append (m : Mem) (l : Ptr) (x : Option Ptr) : Grows m (m.append l x).2 := (grows_make m _).trans (grows_new _ _)

/-- C88. What `Append` returns shares no memory with anything that was there before: assignments to the elements of the new list change no old
slice or list, and assignments through an old slice do not change the new list. -/
theorem C88_append_independent (m : Mem) (l : Ptr) (x : Option Ptr) (w : Window) (hw : InArray m w) (i : Nat) (y : Option Ptr) :
    ((m.append l x).2.assign ((m.append l x).2.elements (m.append l x).1) i y).window w = m.window w ∧
    ((m.append l x).2.assign w i y).window ((m.append l x).2.elements (m.append l x).1) = m.window (m.elements l) ++ [x] := by
  rw [← (grows_append m l x).seen hw, ← append_window m l x]
  cases inside_old hw with
  | inl ha =>
    have : w.array ≠ ((m.append l x).2.elements (m.append l x).1).array := by rw [append_elements]; exact Nat.ne_of_lt ha
    exact ⟨assign_other this i y, assign_other this.symm i y⟩
  | inr h0 =>
    refine ⟨assign_none h0 i y, ?_⟩
    rw [Mem.assign, if_neg (by omega)]

theorem set_drop_take (a : List (Option Ptr)) (o n k : Nat) (y : Option Ptr) :
    ((a.set (o + k) y).drop o).take n = ((a.drop o).take n).set k y := by
  rw [List.drop_set]
  rw [if_neg (by omega), show o + k - o = k by omega, List.take_set]

/-- What an assignment through one window does to what is seen through another one that begins `k` places before it. -/
theorem assign_same {m : Mem} {s w : Window} (ha : w.array = s.array) (k : Nat) (ho : s.off = w.off + k) (i : Nat) (hi : i < s.len) (y : Option Ptr) :
    (m.assign s i y).window w = (m.window w).set (k + i) y := by
  rw [Mem.assign, if_pos hi]
  simp only [Mem.window]
  rw [modify_getD _ _ _ _ (by simp), if_pos ha, ho, Nat.add_assoc, set_drop_take]

/-- C88, negative result: `Rest` is not a copy, although its documentation says "a new list". An assignment to an element of the rest changes the
element one place further in the list it was taken from. -/
theorem C88_false_rest_copies (m : Mem) (h : Sound m) (l : Ptr) (vs : List Value) (hl : Stands m (some l) (.list vs)) (i : Nat)
    (hi : i + 1 < vs.length) (y : Option Ptr) :
    ((m.rest l).2.assign ((m.rest l).2.elements (m.rest l).1) i y).window (m.elements l) = (m.window (m.elements l)).set (i + 1) y := by
  have hlen := elements_len h hl
  have hr : (m.rest l).2.elements (m.rest l).1 =
      ⟨(m.elements l).array, (m.elements l).off + 1, (m.elements l).len - 1, (m.elements l).cap - 1⟩ := by
    simp only [Mem.rest]
    rw [if_neg (by omega)]
    simp [Mem.new, Mem.elements]
  have hw : (m.rest l).2.window (m.elements l) = m.window (m.elements l) := (grows_call m (.rest l)).seen (inside_elements h l)
  rw [hr, assign_same (s := ⟨(m.elements l).array, (m.elements l).off + 1, (m.elements l).len - 1, (m.elements l).cap - 1⟩) (w := m.elements l)
    rfl 1 rfl i (by simp only; omega), hw, Nat.add_comm]

/-- C88, negative result: `NewList` of a slice is not a copy: an assignment to an element of the slice changes the list. -/
theorem C88_false_new_list_copies (m : Mem) (s : Window) (hs : InArray m s) (i : Nat) (hi : i < s.len) (y : Option Ptr) :
    ((m.newListFrom s).2.assign s i y).window ((m.newListFrom s).2.elements (m.newListFrom s).1) = (m.window s).set i y := by
  have hr : (m.newListFrom s).2.elements (m.newListFrom s).1 = s := by simp [Mem.newListFrom, Mem.new, Mem.elements]
  rw [hr, assign_same (k := 0) rfl rfl i hi, show (m.newListFrom s).2.window s = m.window s from (grows_new m _).seen hs, Nat.zero_add]

/-- No list looks through a window with room behind it. -/
def Full (m : Mem) : Prop := ∀ (p : Ptr) (s : Window), m.cells[p]? = some (Cell.list s) → s.len = s.cap

theorem full_new {m : Mem} (h : Full m) {c : Cell} (hc : ∀ s, c = .list s → s.len = s.cap) : Full (m.new c).2 := by
  intro p s hp
  simp only [Mem.new] at hp
  by_cases hlt : p < m.cells.length
  · rw [List.getElem?_append_left hlt] at hp
    exact h p s hp
  · rw [List.getElem?_append_right (Nat.le_of_not_lt hlt)] at hp
    obtain ⟨hx, hy⟩ := List.getElem?_eq_some_iff.1 hp
    simp at hx
    simp [hx] at hy
    exact hc s hy

theorem full_elements {m : Mem} (h : Full m) (l : Ptr) : (m.elements l).len = (m.elements l).cap := by
  unfold Mem.elements
  split
  · rename_i s hs
    exact h l s hs
  · rfl

theorem full_made {m : Mem} (h : Full m) (xs : List (Option Ptr)) : Full ((m.make xs).2.new (.list (m.make xs).1)).2 :=
  full_new (m := (m.make xs).2) h fun t ht => by cases ht; rfl

theorem full_call {m : Mem} (h : Full m) (c : Making) (hc : ∀ s, c ≠ .listFrom s) : Full (m.call c).2 := by
  cases c with
  | symbol | string | number => exact full_new h (by simp)
  | listFrom s => exact absurd rfl (hc s)
  | list xs => cases xs with
    | nil => exact full_new h fun t ht => by cases ht; rfl
    | cons x xs => exact full_made h _
  | emptyList => exact full_made h _
  | rest l =>
    simp only [Mem.call, Mem.rest]
    split
    · exact full_made h _
    · exact full_new h fun t ht => by cases ht; have := full_elements h l; simp only; omega
  | append l x => exact full_made h _

/-- C88. Go's own `append` on the elements of a list made with `NewList` of arguments, `NewEmptyList`, `Rest` and `Append` copies them: nothing that
was there before changes. -/
theorem C88_go_append (m : Mem) (h : Full m) (cs : List Making) (hc : ∀ c ∈ cs, ∀ s, c ≠ Making.listFrom s) (l : Ptr) (x : Option Ptr) (spare : Nat) :
    let m' := m.calls cs
    let r := m'.goAppend (m'.elements l) x spare
    Grows m' r.2 ∧ (Sound m' → r.2.window r.1 = m'.window (m'.elements l) ++ [x]) := by
  have hf : Full (m.calls cs) := by
    induction cs generalizing m with
    | nil => exact h
    | cons c cs ih => exact ih _ (full_call h c (hc c List.mem_cons_self)) fun d hd => hc d (List.mem_cons_of_mem _ hd)
  have hfull := full_elements hf l
  simp only [Mem.goAppend]
  rw [if_neg (by omega)]
  refine ⟨⟨List.prefix_rfl, List.prefix_append _ _⟩, fun hs => ?_⟩
  have hlen := window_length (inside_elements hs l)
  simp only [Mem.window] at hlen ⊢
  simp only [List.getD, List.getElem?_append_right (Nat.le_refl _), Nat.sub_self, List.getElem?_cons_zero, Option.getD_some, List.drop_zero]
  simp only [List.getD] at hlen
  generalize ((List.drop _ _).take _ : List (Option Ptr)) = z at hlen ⊢
  rw [show ((m.calls cs).elements l).len + 1 = (z ++ [x]).length by simp [hlen], List.take_left]

/-- C88, negative result: if a list was made with `NewList` of a slice with room behind it, two uses of Go's `append` on its elements end in the
same place: the second one changes the result of the first. -/
theorem C88_false_append_twice (m : Mem) (l : Ptr) (h : Sound m) (hr : (m.elements l).len < (m.elements l).cap) (x y : Option Ptr) (a b : Nat) :
    let r := m.goAppend (m.elements l) x a
    let r' := r.2.goAppend (r.2.elements l) y b
    r.2.window r.1 = m.window (m.elements l) ++ [x] ∧ r'.2.window r.1 = m.window (m.elements l) ++ [y] := by
  obtain ⟨h1, h2⟩ := inside_elements h l
  have he : (m.goAppend (m.elements l) x a).2.elements l = m.elements l := by
    simp only [Mem.goAppend, if_pos hr]
    rfl
  have key : ∀ (arr : List (Option Ptr)) (o n : Nat) (z : Option Ptr), o + n < arr.length →
      ((arr.set (o + n) z).drop o).take (n + 1) = (arr.drop o).take n ++ [z] := by
    intro arr o n z hlt
    rw [List.drop_set, if_neg (by omega), show o + n - o = n by omega]
    apply List.ext_getElem?
    intro j
    have hj : n < (arr.drop o).length := by rw [List.length_drop]; omega
    simp only [List.getElem?_take, List.getElem?_set, List.getElem?_append, List.length_take]
    rw [Nat.min_eq_left (Nat.le_of_lt hj)]
    by_cases c1 : j < n
    · simp [c1, show j < n + 1 by omega, show ¬ n = j by omega]
    · by_cases c2 : j = n
      · subst c2; simp; omega
      · rw [if_neg (by omega), if_neg c1]
        rw [List.getElem?_eq_none (by simp; omega)]
  simp only [he]
  simp only [Mem.goAppend, if_pos hr, Mem.window]
  rw [modify_getD _ _ _ _ (by simp), if_pos rfl, modify_getD _ _ _ _ (by simp), if_pos rfl, modify_getD _ _ _ _ (by simp), if_pos rfl,
    List.set_set, key _ _ _ _ (by omega), key _ _ _ _ (by omega)]
  exact ⟨rfl, rfl⟩

/-! ### Equal -/

theorem goEquals_length : ∀ {us vs : List Value}, us.length ≠ vs.length → goEquals us vs = false
  | [], [], h => absurd rfl h
  | [], _ :: _, _ => by simp [goEquals]
  | _ :: _, [], _ => by simp [goEquals]
  | _ :: us, _ :: vs, h => by
    simp only [goEquals]
    rw [goEquals_length (us := us) (vs := vs) (by simpa using h), Bool.and_false]

mutual
theorem equal_trees {m : Mem} (h : Sound m) : ∀ {x : Option Ptr} {u : Value}, Stands m x u → ∀ {y : Option Ptr} {v : Value}, Stands m y v →
    ∃ n, ∀ k, n ≤ k → m.equal k x y = some (goEqual u v)
  | _, _, .sym hp, _, v, hy => ⟨1, fun k hk => by
      obtain ⟨k, rfl⟩ : ∃ j, k = j + 1 := ⟨k - 1, by omega⟩
      cases hy with
      | sym hq => simp [Mem.equal, hp, hq, goEqual]
      | str hq => simp [Mem.equal, hp, hq, goEqual]
      | num hq => simp [Mem.equal, hp, hq, goEqual]
      | list hq _ => simp [Mem.equal, hp, hq, goEqual]⟩
  | _, _, .str hp, _, v, hy => ⟨1, fun k hk => by
      obtain ⟨k, rfl⟩ : ∃ j, k = j + 1 := ⟨k - 1, by omega⟩
      cases hy with
      | sym hq => simp [Mem.equal, hp, hq, goEqual]
      | str hq => simp [Mem.equal, hp, hq, goEqual]
      | num hq => simp [Mem.equal, hp, hq, goEqual]
      | list hq _ => simp [Mem.equal, hp, hq, goEqual]⟩
  | _, _, .num hp, _, v, hy => ⟨1, fun k hk => by
      obtain ⟨k, rfl⟩ : ∃ j, k = j + 1 := ⟨k - 1, by omega⟩
      cases hy with
      | sym hq => simp [Mem.equal, hp, hq, goEqual]
      | str hq => simp [Mem.equal, hp, hq, goEqual]
      | num hq => simp [Mem.equal, hp, hq, goEqual]
      | list hq _ => simp [Mem.equal, hp, hq, goEqual]⟩
  | _, _, .list (vs := us) hp hs, _, _, hy => by
    cases hy with
    | sym hq => exact ⟨1, fun k hk => by obtain ⟨k, rfl⟩ : ∃ j, k = j + 1 := ⟨k - 1, by omega⟩; simp [Mem.equal, hp, hq, goEqual]⟩
    | str hq => exact ⟨1, fun k hk => by obtain ⟨k, rfl⟩ : ∃ j, k = j + 1 := ⟨k - 1, by omega⟩; simp [Mem.equal, hp, hq, goEqual]⟩
    | num hq => exact ⟨1, fun k hk => by obtain ⟨k, rfl⟩ : ∃ j, k = j + 1 := ⟨k - 1, by omega⟩; simp [Mem.equal, hp, hq, goEqual]⟩
    | @list _ t vs hq ht =>
      have l1 := window_length (h _ _ hp)
      have l2 := window_length (h _ _ hq)
      have s1 := standAll_length hs
      have s2 := standAll_length ht
      by_cases hl : us.length = vs.length
      · obtain ⟨n, hn⟩ := equal_all h hs ht hl
        refine ⟨n + 1, fun k hk => ?_⟩
        obtain ⟨k, rfl⟩ : ∃ j, k = j + 1 := ⟨k - 1, by omega⟩
        simp only [Mem.equal, hp, hq, goEqual]
        rw [if_neg (by omega)]
        exact hn k (by omega)
      · refine ⟨1, fun k hk => ?_⟩
        obtain ⟨k, rfl⟩ : ∃ j, k = j + 1 := ⟨k - 1, by omega⟩
        simp only [Mem.equal, hp, hq, goEqual]
        rw [if_pos (by omega), goEquals_length hl]
theorem equal_all {m : Mem} (h : Sound m) : ∀ {xs : List (Option Ptr)} {us : List Value}, StandAll m xs us → ∀ {ys : List (Option Ptr)} {vs : List Value},
    StandAll m ys vs → us.length = vs.length → ∃ n, ∀ k, n ≤ k → m.equals k xs ys = some (goEquals us vs)
  | _, _, .nil, _, _, hy, hl => ⟨1, fun k hk => by
      obtain ⟨k, rfl⟩ : ∃ j, k = j + 1 := ⟨k - 1, by omega⟩
      cases hy with
      | nil => simp [Mem.equals, goEquals]
      | cons a b => simp at hl⟩
  | _, _, .cons a b, _, _, hy, hl => by
    cases hy with
    | nil => simp at hl
    | @cons y ys v vs a' b' =>
      obtain ⟨n1, h1⟩ := equal_trees h a a'
      obtain ⟨n2, h2⟩ := equal_all h b b' (by simpa using hl)
      refine ⟨n1 + n2 + 1, fun k hk => ?_⟩
      obtain ⟨k, rfl⟩ : ∃ j, k = j + 1 := ⟨k - 1, by omega⟩
      simp only [Mem.equals, goEquals, h1 k (by omega), h2 k (by omega)]
      cases goEqual _ v <;> rfl
end

/-- C88. `Equal` on values in memory, however their memory is shared, is `Equal` on what they stand for (C44): it comes to an end, and where the
values are in memory makes no difference. -/
theorem C88_equal (m : Mem) (h : Sound m) (x y : Option Ptr) (u v : Value) (hx : Stands m x u) (hy : Stands m y v) :
    ∃ n, ∀ k, n ≤ k → m.equal k x y = some (goEqual u v) := equal_trees h hx hy

/-! ### A concrete case: the example of /repo/edlisp/doc.go:13-23 -/

/-- `sym := NewSymbol("search-forward"); str := NewString("hello"); num := NewNumber(42.0); list := NewList(sym, str)`. -/
def docCalls : List Making := [.symbol b! "search-forward", .string b! "hello", .number (F64.ofInt 42), .list [some 0, some 1]]

/-- Memory after these four lines. -/
def docMem : Mem := Mem.calls ⟨[], []⟩ docCalls

theorem docMem_possible : Possible ⟨[], []⟩ docCalls :=
  ⟨fun _ h => (nomatch h), fun _ h => (nomatch h), fun _ h => (nomatch h), fun _ h => (nomatch h), trivial⟩

theorem docMem_sound : Sound docMem := (calls_grow sound_start docCalls docMem_possible).2

theorem docMem_list : Stands docMem (some 3) (.list [.sym b! "search-forward", .str b! "hello"]) :=
  .list (s := ⟨0, 0, 2, 2⟩) rfl (.cons (.sym rfl) (.cons (.str rfl) .nil))

/-- `first := list.First(); rest := list.Rest(); extended := list.Append(num)`. -/
example : Stands docMem (docMem.first 3) (.sym b! "search-forward") ∧
    Stands (docMem.rest 3).2 (some (docMem.rest 3).1) (.list [.str b! "hello"]) ∧
    Stands (docMem.append 3 (some 2)).2 (some (docMem.append 3 (some 2)).1) (.list [.sym b! "search-forward", .str b! "hello", .num (F64.ofInt 42)]) :=
  ⟨(C88_first docMem docMem_sound 3 _ docMem_list).1 _ _ rfl, C88_rest docMem docMem_sound 3 _ docMem_list,
    C88_append docMem docMem_sound 3 _ docMem_list (some 2) _ (.num rfl)⟩

/-- Through `rest.Elements[0] = num` the list itself becomes `(search-forward 42)`. -/
example : ((docMem.rest 3).2.assign ((docMem.rest 3).2.elements (docMem.rest 3).1) 0 (some 2)).window (docMem.elements 3) = [some 0, some 2] := by
  decide +kernel

/-- `NewList(xs[:1]...)` of a slice of two: room behind it. -/
example : let m := (docMem.newListFrom ⟨0, 0, 1, 2⟩).2
    Sound m ∧ (m.elements 4).len < (m.elements 4).cap :=
  ⟨sound_call docMem_sound (.listFrom ⟨0, 0, 1, 2⟩) (by intro s h; cases h; exact ⟨by decide, by decide⟩), by decide⟩

example : Full ⟨[], []⟩ := fun p s h => by simp at h

/-- Two lists with the same elements in different places are equal. -/
example : ((docMem.rest 3).2.append 3 (some 2)).2.equal 9 (some 3) (some 3) = some true ∧
    (docMem.newList [some 0, some 1]).2.equal 9 (some 3) (some 4) = some true ∧
    (docMem.newList [some 0, some 2]).2.equal 9 (some 3) (some 4) = some false := by decide +kernel

end Texted
