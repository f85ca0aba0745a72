import Verif.Lemmas.Utf8Text
import Verif.Lemmas.LitExt
import Verif.Lemmas.ReExt
import Verif.Props.Span
/- C73: when UTF-8 text stays UTF-8 text. -/
namespace Texted
variable [Ext]

/-! ### Strings -/

omit [Ext] in
theorem utf8_of_encode (cs : List Char) : Utf8Text (encodeAll cs) := utf8_encodeAll.2 ⟨cs, rfl⟩

omit [Ext] in
theorem utf8_take_length (u v : Bytes) (hu : Utf8Text u) (hv : Utf8Text v) : Cut (u ++ v) u.length := by
  have := (cut_append hu Utf8Text.nil hv).1
  simpa using this

omit [Ext] in
theorem utf8_mem : ∀ {l : List Value}, Utf8StringsAll l → ∀ v ∈ l, Utf8Strings v
  | _ :: _, h, v, hv => by
    rcases List.mem_cons.1 hv with rfl | hv
    · exact h.1
    · exact utf8_mem h.2 v hv

omit [Ext] in
theorem utf8_concat : ∀ (args : List Value) (i : Nat) (s : Bytes), Utf8StringsAll args → concatLoop i args = .ok s → Utf8Text s
  | [], i, s, _, h => by cases h; exact Utf8Text.nil
  | .str t :: rest, i, s, hu, h => by
    simp only [concatLoop] at h
    split at h
    · rename_i r hr
      cases h
      exact Utf8Text.append hu.1 (utf8_concat rest _ r hu.2 hr)
    · cases h
  | .num _ :: _, _, _, _, h => by cases h
  | .sym _ :: _, _, _, _, h => by cases h
  | .list _ :: _, _, _, _, h => by cases h

/-- The name at the beginning of UTF-8 text ends between characters. -/
theorem nameLength_cut (f : Nat) : ∀ (cs : List Char), (encodeAll cs).length ≤ f →
    ∃ ds es, cs = ds ++ es ∧ nameLength f (encodeAll cs) = (encodeAll ds).length := by
  induction f with
  | zero => intro cs _; exact ⟨[], cs, rfl, rfl⟩
  | succ f ih =>
    intro cs hf
    cases cs with
    | nil => exact ⟨[], [], rfl, rfl⟩
    | cons c cs =>
      have hl := encodeRune_length c
      have he : encodeAll (c :: cs) = encodeRune c ++ encodeAll cs := by simp [encodeAll]
      have hd := decode_encode c (encodeAll cs)
      rw [← he] at hd
      cases hs : encodeAll (c :: cs) with
      | nil => rw [he] at hs; have h0 := congrArg List.length hs; simp only [List.length_append, List.length_nil] at h0; omega
      | cons x r =>
        simp only [nameLength]
        rw [← hs, hd]
        simp only []
        split
        · have hdrop : (encodeAll (c :: cs)).drop (encodeRune c).length = encodeAll cs := by rw [he, List.drop_left]
          rw [hdrop]
          rw [he, List.length_append] at hf
          obtain ⟨ds, es, rfl, hn⟩ := ih cs (by omega)
          exact ⟨c :: ds, es, rfl, by rw [hn]; simp [encodeAll]⟩
        · exact ⟨[], c :: cs, rfl, rfl⟩

/-- What follows a reference in UTF-8 text is UTF-8 text. -/
theorem extractRef_utf8 {t name rest : Bytes} (h : Utf8Text t) (he : extractRef t = some (name, rest)) :
    Utf8Text rest ∧ rest.length ≤ t.length := by
  have key : ∀ s : Bytes, Utf8Text s → Cut s (nameLength s.length s) := by
    intro s hs
    obtain ⟨cs, rfl⟩ := utf8_encodeAll.1 hs
    obtain ⟨ds, es, rfl, hn⟩ := nameLength_cut _ cs (Nat.le_refl _)
    rw [hn]
    have : encodeAll (ds ++ es) = encodeAll ds ++ encodeAll es := by simp [encodeAll]
    rw [this]
    exact utf8_take_length _ _ (utf8_of_encode ds) (utf8_of_encode es)
  unfold extractRef at he
  split at he
  · rename_i hb
    have hx : t[0]? = some 123 := by rw [← List.head?_eq_getElem?]; exact hb
    have hd : Utf8Text (t.drop 1) := (cut_ascii h hx (by decide)).2.2.2
    simp only [] at he
    split at he
    · cases he
    · split at he
      · rename_i hc
        cases he
        refine ⟨(cut_ascii hd hc (by decide)).2.2.2, ?_⟩
        simp only [List.length_drop]; omega
      · cases he
  · simp only [] at he
    split at he
    · cases he
    · cases he
      exact ⟨(key t h).2.2, by simp only [List.length_drop]; omega⟩

/-- Bytes other than `$` are copied. -/
theorem expandLoop_copy (re : Regex) (s : Bytes) (m : Nat × Nat) (u : Bytes) (hu : ∀ x ∈ u, x ≠ 36) : ∀ f t, u.length ≤ f →
    expandLoop re s m f (u ++ t) = u ++ expandLoop re s m (f - u.length) t := by
  induction u with
  | nil => intro f t _; simp
  | cons x u ih =>
    intro f t hf
    simp only [List.length_cons] at hf ⊢
    obtain ⟨f, rfl⟩ : ∃ g, f = g + 1 := ⟨f - 1, by omega⟩
    simp only [List.cons_append, expandLoop]
    rw [if_pos (hu x List.mem_cons_self), ih (fun y hy => hu y (List.mem_cons_of_mem _ hy)) f t (by omega)]
    rw [show f + 1 - (u.length + 1) = f - u.length by omega]

omit [Ext] in
/-- An encoded character contains `$` only if it is `$`. -/
theorem encodeRune_dollar (c : Char) : encodeRune c = [36] ∨ ∀ x ∈ encodeRune c, x ≠ 36 := by
  refine Classical.byContradiction fun hn => ?_
  simp only [not_or] at hn
  obtain ⟨h1, h2⟩ := hn
  refine h2 fun x hx he => ?_
  subst he
  obtain ⟨n, hlt, hn⟩ := List.mem_iff_getElem.1 hx
  have hb := encodeRune_bytes c n 36 (by rw [List.getElem?_eq_getElem hlt, hn])
  have h0 : n = 0 := by
    have : isCont (36 : UInt8) = false := by decide
    rw [this] at hb; simpa using hb
  subst h0
  have hd := decode_encode c []
  rw [List.append_nil] at hd
  cases hc : encodeRune c with
  | nil => rw [hc] at hlt; cases hlt
  | cons y r =>
    have hy : y = 36 := by rw [← hn]; simp only [hc, List.getElem_cons_zero]
    subst hy
    rw [hc] at hd
    have h3 : decodeRune (36 :: r) = (Char.ofNat 36, 1) := rfl
    rw [h3] at hd
    have hl : 1 = (36 :: r).length := congrArg Prod.snd hd
    have hr : r = [] := by simpa using hl.symm
    subst hr
    exact h1 hc

theorem expandLoop_utf8 (re : Regex) (s : Bytes) (m : Nat × Nat) (hr : ∀ name, Utf8Text (refText re s m name)) (f : Nat) :
    ∀ t, Utf8Text t → t.length ≤ f → Utf8Text (expandLoop re s m f t) := by
  induction f using Nat.strongRecOn with
  | _ f ih =>
    intro t ht hf
    obtain ⟨cs, rfl⟩ := utf8_encodeAll.1 ht
    cases cs with
    | nil => cases f <;> exact Utf8Text.nil
    | cons c cs =>
      have hl := encodeRune_length c
      have he : encodeAll (c :: cs) = encodeRune c ++ encodeAll cs := by simp [encodeAll]
      rw [he, List.length_append] at hf
      rw [he]
      rcases encodeRune_dollar c with hd | hd
      · rw [hd] at hf ⊢
        simp only [List.length_singleton] at hf
        obtain ⟨f, rfl⟩ : ∃ g, f = g + 1 := ⟨f - 1, by omega⟩
        have h36 : Utf8Text [36] := utf8_ascii_byte (by decide)
        have hcs := utf8_of_encode cs
        simp only [List.singleton_append, expandLoop]
        rw [if_neg (by simp)]
        split
        · rename_i hh
          have hx : (encodeAll cs)[0]? = some 36 := by rw [← List.head?_eq_getElem?]; exact hh
          refine Utf8Text.append h36 (ih f (by omega) _ (cut_ascii hcs hx (by decide)).2.2.2 ?_)
          simp only [List.length_drop]; omega
        · split
          · exact Utf8Text.append h36 (ih f (by omega) _ hcs (by omega))
          · rename_i name rest hx
            have := extractRef_utf8 hcs hx
            exact Utf8Text.append (hr name) (ih f (by omega) _ this.1 (by omega))
      · rw [expandLoop_copy re s m _ hd _ _ (by omega)]
        refine Utf8Text.append ?_ (ih _ (by omega) _ (utf8_of_encode cs) (by omega))
        have := utf8_of_encode [c]
        simpa [encodeAll] using this

/-- Replacing matches in UTF-8 text by UTF-8 text gives UTF-8 text. -/
theorem replaceAll_utf8 [TextExt] {p : Bytes} {re : Regex} (hc : Ext.compile p = .ok re) {s t : Bytes} (hs : Utf8Text s)
    (ht : Utf8Text t) : Utf8Text (re.replaceAll s t) := by
  have hm : ∀ i j, i ≤ j ∧ Between s ((i : Nat) + 1) ∧ Between s ((j : Nat) + 1) → Utf8Text (matchText s (some (i, j))) := by
    intro i j ⟨h1, h2, h3⟩
    exact (cut_between.1 h2).mid (cut_between.1 h3) h1
  have hnil : Utf8Text (matchText s none) := Utf8Text.nil
  have href : ∀ m ∈ re.findAll s, ∀ name, Utf8Text (refText re s m name) := by
    intro m hmem name
    have hg : ∀ g ∈ re.groups s m, Utf8Text (matchText s g) := by
      intro g hg
      cases g with
      | none => exact hnil
      | some g => exact hm _ _ (TextExt.groups p re s m g.1 g.2 hc hs hmem hg)
    unfold refText
    split
    · exact hm _ _ (TextExt.findAll p re s m.1 m.2 hc hs hmem)
    · rename_i k _
      cases hk : (re.groups s m)[k]? with
      | none => exact hnil
      | some g => exact hg g (List.mem_of_getElem? hk)
    · generalize re.names = ns
      have : ∀ (ns : List Bytes) (gs : List (Option (Nat × Nat))), (∀ g ∈ gs, Utf8Text (matchText s g)) →
          Utf8Text (lookupName s name ns gs) := by
        intro ns
        induction ns with
        | nil => intro gs _; unfold lookupName; exact Utf8Text.nil
        | cons n ns ih =>
          intro gs hgs
          cases gs with
          | nil => exact Utf8Text.nil
          | cons g gs =>
            simp only [lookupName]
            split
            · exact hgs g List.mem_cons_self
            · exact ih gs fun g' h' => hgs g' (List.mem_cons_of_mem _ h')
      exact this ns _ hg
  have hord := TextExt.order p re s hc hs
  have hall : ∀ m ∈ re.findAll s, m.1 ≤ m.2 ∧ Cut s m.1 ∧ Cut s m.2 := by
    intro m hmem
    have := TextExt.findAll p re s m.1 m.2 hc hs hmem
    exact ⟨this.1, cut_between.1 this.2.1, cut_between.1 this.2.2⟩
  have key : ∀ (l : List (Nat × Nat)) (last : Nat), Cut s last → (∀ m ∈ l, last ≤ m.1) → (∀ m ∈ l, m ∈ re.findAll s) →
      l.Pairwise (fun a c => a.2 ≤ c.1) → Utf8Text (replaceLoop re s t last l) := by
    intro l
    induction l with
    | nil => intro last h _ _ _; exact h.2.2
    | cons m l ih =>
      intro last h hle hmem hp
      obtain ⟨i, j⟩ := m
      have h1 := hall (i, j) (hmem _ List.mem_cons_self)
      have h2 := hle (i, j) List.mem_cons_self
      rw [List.pairwise_cons] at hp
      simp only [replaceLoop]
      refine Utf8Text.append (Utf8Text.append (h.mid h1.2.1 h2) ?_) (ih j h1.2.2 ?_ ?_ hp.2)
      · exact expandLoop_utf8 re s (i, j) (href _ (hmem _ List.mem_cons_self)) _ t ht (Nat.le_refl _)
      · intro m' h'; exact hp.1 m' h'
      · intro m' h'; exact hmem m' (List.mem_cons_of_mem _ h')
  exact key _ 0 (cut_zero hs) (fun _ _ => Nat.zero_le _) (fun _ h => h) hord

/-! ### One call -/

omit [Ext] in
theorem TextState.text {m r : Bool} {b : Buffer} (h : TextState m r b) : Utf8Text b.content := by
  obtain ⟨u, v, hu, hv, e, _⟩ := h.point
  rw [e]; exact hu.append hv

omit [Ext] in
theorem TextState.cut {m r : Bool} {b : Buffer} (h : TextState m r b) :
    ∃ p : Nat, b.point = p + 1 ∧ Cut b.content p ∧ dec64 b.point = (p : Int) := by
  obtain ⟨n, hp, hc⟩ := between_exists h.point
  exact ⟨n, hp, hc, by rw [hp, dec64_succ]⟩

omit [Ext] in
theorem TextState.inRange {m r : Bool} {b : Buffer} (h : TextState m r b) : InRange b := by
  obtain ⟨p, hp, hc, _⟩ := h.cut
  have := hc.1
  exact ⟨by omega, by omega⟩

omit [Ext] in
theorem TextState.move {m r : Bool} {b : Buffer} (h : TextState m r b) {n : Nat} (hn : Cut b.content n) :
    TextState m r { b with point := (n : Int) + 1 } := ⟨cut_between.2 hn, h.mark, h.matched⟩

omit [Ext] in
theorem TextState.weaken {m r : Bool} {b : Buffer} (h : TextState m r b) : TextState false false b :=
  ⟨h.point, (fun h => nomatch h), (fun h => nomatch h)⟩

/-- A text state for an edited buffer. -/
theorem textState_splice {b b' : Buffer} {i j : Nat} {t : Bytes} {p : Nat} {v : Value} (hi : Cut b.content i) (hj : Cut b.content j)
    (ht : Utf8Text t) (hp : p = i ∨ p = i + t.length) (h : spliceOr b i t j ((p : Int) + 1) = (.ok v, b')) :
    Utf8Strings v ∧ TextState false false b' := by
  rw [spliceOr_eq _ _ _ _ _ hi.1 hj.1] at h
  simp only [okEmpty, Prod.mk.injEq, Res.ok.injEq] at h
  obtain ⟨rfl, rfl⟩ := h
  refine ⟨Utf8Text.nil, ?_, (fun h => nomatch h), (fun h => nomatch h)⟩
  have hc := cut_append hi.2.1 ht hj.2.2
  rw [List.length_take, Nat.min_eq_left hi.1] at hc
  rcases hp with rfl | rfl
  · exact cut_between.2 hc.1
  · exact cut_between.2 hc.2

theorem oneNum_ok {name args} {b b' : Buffer} {k : Int → Res Bytes Value × Buffer} {v : Value}
    (h : oneNum name args b k = (.ok v, b')) : ∃ x : F64, args = [.num x] ∧ k x.toInt = (.ok v, b') := by
  unfold oneNum at h
  split at h
  · exact ⟨_, rfl, h⟩
  · simp [fail] at h
  · simp [fail] at h

theorem panic_changes_nothing (name : Bytes) (args : List Value) (b : Buffer) (h : (call name args b).1 = .panic) :
    (call name args b).2 = b := by
  revert h
  by_cases h : name ∈ allNames
  · each_name h <;> branches
  · rw [call_unknown name h]; simp

/-- A function that returns no string (other than the empty one). -/
theorem no_string (name : Bytes) (hn : name ∈ [b! "mark", b! "point", b! "line-number-at-pos", b! "region-beginning", b! "region-end",
    b! "length", b! "string-match", b! "buffer-size", b! "point-max", b! "point-min", b! "current-column", b! "looking-at",
    b! "looking-back"]) (args : List Value) (b b' : Buffer) (v : Value) (h : call name args b = (.ok v, b')) :
    Utf8Strings v := by
  have key : ∀ v, (call name args b).1 = .ok v → Utf8Strings v := by
    simp only [List.mem_cons, List.not_mem_nil, or_false] at hn
    rcases hn with h | h | h | h | h | h | h | h | h | h | h | h | h <;> subst h <;> branches
    all_goals first
      | (intro v h; subst h; simp [Utf8Strings, numV, symT, symNil])
      | simp [Utf8Strings, numV, symT, symNil]
  exact key v (by rw [h])

/-- The functions that move point and change nothing else. -/
theorem motion_utf8 {m r : Bool} {b b' : Buffer} (hs : TextState m r b) {name : Bytes}
    (hn : name ∈ [b! "goto-line", b! "beginning-of-buffer", b! "end-of-buffer", b! "beginning-of-line", b! "end-of-line",
      b! "forward-word", b! "backward-word"]) {args : List Value} {v : Value} (hb : name = b! "beginning-of-line" → b.content ≠ [])
    (h : call name args b = (.ok v, b')) : Utf8Strings v ∧ TextState m r b' := by
  have ht := hs.text
  obtain ⟨p, hpt, hcut, hd⟩ := hs.cut
  have hle := hcut.1
  have fin : ∀ {n : Nat}, Cut b.content n → done { b with point := (n : Int) + 1 } = (.ok v, b') →
      Utf8Strings v ∧ TextState m r b' := by
    intro n hc hk
    simp only [done, Prod.mk.injEq, Res.ok.injEq] at hk
    obtain ⟨rfl, rfl⟩ := hk
    exact ⟨Utf8Text.nil, hs.move hc⟩
  simp only [List.mem_cons, List.not_mem_nil, or_false] at hn
  rcases hn with rfl | rfl | rfl | rfl | rfl | rfl | rfl
  · rw [call_goto_line] at h
    obtain ⟨x, _, hk⟩ := oneNum_ok h
    have hlen := splitByte_length b.content
    obtain ⟨q, hq, hqle, _, hline⟩ := lineOffset_spec b.content
      ((if x.toInt < 1 then 1 else if x.toInt > ((splitByte nl b.content).length : Int) then ((splitByte nl b.content).length : Int)
        else x.toInt) - 1).toNat
      (by split <;> first | omega | (split <;> omega))
    simp only [hq] at hk
    exact fin (cut_lineStart ht hline) hk
  · rw [call_beginning_of_buffer] at h
    obtain ⟨_, hk⟩ := noArgs_ok h
    exact fin (n := 0) (cut_zero ht) hk
  · rw [call_end_of_buffer] at h
    obtain ⟨_, hk⟩ := noArgs_ok h
    exact fin (cut_end ht) hk
  · rw [call_beginning_of_line] at h
    obtain ⟨_, hk⟩ := noArgs_ok h
    have hc : 0 < b.content.length := List.length_pos_iff.2 (hb rfl)
    simp only [hd] at hk
    rw [if_neg (by omega)] at hk
    obtain ⟨q, hq, hqle⟩ : ∃ q : Nat, (if (p : Int) ≥ (b.content.length : Int) then (b.content.length : Int) - 1 else p) = q ∧
        q ≤ b.content.length := by
      split
      · exact ⟨b.content.length - 1, by omega, by omega⟩
      · exact ⟨p, rfl, hle⟩
    rw [hq] at hk
    obtain ⟨k, hk', hks⟩ := scanBack_line b.content q hqle
    simp only [hk'] at hk
    exact fin (cut_lineStart ht hks) hk
  · rw [call_end_of_line] at h
    obtain ⟨_, hk⟩ := noArgs_ok h
    simp only [hd, atLeast0_eq, Int.toNat_natCast] at hk
    split at hk
    · exact fin (cut_end ht) hk
    · obtain ⟨k, hk', hks⟩ := scanFwd_line b.content p hle
      simp only [hk'] at hk
      exact fin (cut_lineEnd ht hks) hk
  · rw [call_forward_word] at h
    obtain ⟨n, _, hk⟩ := withCount_ok h
    obtain ⟨k, hk', hit, _, hkle⟩ := fwdWords_spec b.content n.toNat p hle
    simp only [hd, hk'] at hk
    rw [incPos_le _ _ (by omega)] at hk
    exact fin (cut_iter (fun _ _ => cut_nextWord ht) hcut hit) hk
  · rw [call_backward_word] at h
    obtain ⟨n, _, hk⟩ := withCount_ok h
    obtain ⟨k, hk', hit, hkle⟩ := bwdWords_spec b.content n.toNat p hle
    simp only [hd, hk'] at hk
    rw [incPos_le _ _ (by omega)] at hk
    exact fin (cut_iter (fun _ _ => cut_prevWord ht) hcut hit) hk

omit [Ext] in
/-- The run of word bytes around a boundary begins and ends at boundaries. -/
theorem cut_runBack {c : Bytes} (ht : Utf8Text c) {p k : Nat} (hp : Cut c p) (h : BackSpec c (fun x => !isLetter x) p k) : Cut c k := by
  rcases Nat.lt_or_ge k p with hlt | hge
  · obtain ⟨x, hx, hs⟩ := h.2.2 k (Nat.le_refl _) hlt
    have : isLetter x = true := by simpa using hs
    exact (cut_ascii ht hx (wordByte_ascii ((isLetter_iff x).1 this))).1
  · have := h.1
    rw [show k = p by omega]; exact hp

omit [Ext] in
@[inherit_doc cut_runBack]
theorem cut_runFwd {c : Bytes} (ht : Utf8Text c) {p k : Nat} (hp : Cut c p) (h : FwdSpec c (fun x => !isLetter x) p k) : Cut c k := by
  rcases Nat.lt_or_ge p k with hlt | hge
  · obtain ⟨x, hx, hs⟩ := h.2.2.2 (k - 1) (by omega) (by omega)
    have : isLetter x = true := by simpa using hs
    have := (cut_ascii ht hx (wordByte_ascii ((isLetter_iff x).1 this))).2
    rwa [Nat.sub_add_cancel (by omega)] at this
  · have := h.1
    rw [show k = p by omega]; exact hp

theorem query_utf8 {m r : Bool} {b b' : Buffer} (hs : TextState m r b) {name : Bytes} (hq : name ∈ queryNames) {args : List Value}
    {v : Value} (h : call name args b = (.ok v, b')) : TextState m r b' := by
  have := C22_queries_read_only name hq args b
  rw [h] at this
  simp only [] at this
  rw [this]; exact hs

theorem neutral_utf8 [TextExt] {m r : Bool} {b b' : Buffer} (hs : TextState m r b) {name : Bytes} (hn : name ∈ neutralFns)
    {args : List Value} {v : Value} (ha : Utf8StringsAll args) (hb : name = b! "beginning-of-line" → b.content ≠ [])
    (h : call name args b = (.ok v, b')) : Utf8Strings v ∧ TextState m r b' := by
  simp only [neutralFns, List.mem_cons, List.not_mem_nil, or_false] at hn
  rcases hn with rfl | rfl | rfl | rfl | rfl | rfl | rfl | rfl | rfl | rfl | rfl | rfl | rfl | rfl | rfl | rfl | rfl | rfl | rfl | rfl |
    rfl | rfl | rfl | rfl | rfl | rfl
  · exact motion_utf8 hs (by decide) hb h
  · exact motion_utf8 hs (by decide) hb h
  · exact motion_utf8 hs (by decide) hb h
  · exact motion_utf8 hs (by decide) hb h
  · exact motion_utf8 hs (by decide) hb h
  · exact motion_utf8 hs (by decide) hb h
  · exact motion_utf8 hs (by decide) hb h
  · -- mark-word
    rw [call_mark_word] at h
    obtain ⟨_, hk⟩ := noArgs_ok h
    obtain ⟨p, hpt, hcut, hd⟩ := hs.cut
    have hle := hcut.1
    simp only [hd] at hk
    split at hk
    · simp only [done, Prod.mk.injEq, Res.ok.injEq] at hk
      obtain ⟨rfl, rfl⟩ := hk
      exact ⟨Utf8Text.nil, hs⟩
    · obtain ⟨k, hk1, hks⟩ := scanBack_spec b.content (fun x => !isLetter x) p hle
      obtain ⟨k', hk2, hks'⟩ := scanFwd_spec b.content (fun x => !isLetter x) p hle
      simp only [hk1, hk2, done, Prod.mk.injEq, Res.ok.injEq] at hk
      obtain ⟨rfl, rfl⟩ := hk
      exact ⟨Utf8Text.nil, cut_between.2 (cut_runFwd hs.text hcut hks'), fun _ => cut_between.2 (cut_runBack hs.text hcut hks),
        hs.matched⟩
  · exact ⟨no_string _ (by decide) _ _ _ _ h, query_utf8 hs (by decide) h⟩
  · exact ⟨no_string _ (by decide) _ _ _ _ h, query_utf8 hs (by decide) h⟩
  · exact ⟨no_string _ (by decide) _ _ _ _ h, query_utf8 hs (by decide) h⟩
  · exact ⟨no_string _ (by decide) _ _ _ _ h, query_utf8 hs (by decide) h⟩
  · exact ⟨no_string _ (by decide) _ _ _ _ h, query_utf8 hs (by decide) h⟩
  · exact ⟨no_string _ (by decide) _ _ _ _ h, query_utf8 hs (by decide) h⟩
  · exact ⟨no_string _ (by decide) _ _ _ _ h, query_utf8 hs (by decide) h⟩
  · exact ⟨no_string _ (by decide) _ _ _ _ h, query_utf8 hs (by decide) h⟩
  · exact ⟨no_string _ (by decide) _ _ _ _ h, query_utf8 hs (by decide) h⟩
  · exact ⟨no_string _ (by decide) _ _ _ _ h, query_utf8 hs (by decide) h⟩
  · exact ⟨no_string _ (by decide) _ _ _ _ h, query_utf8 hs (by decide) h⟩
  · refine ⟨?_, query_utf8 hs (by decide) h⟩
    rw [call_upcase] at h
    obtain ⟨s, rfl, hk⟩ := oneStr_ok h
    simp only [ret, Prod.mk.injEq, Res.ok.injEq] at hk
    rw [← hk.1]; exact utf8_of_encode _
  · refine ⟨?_, query_utf8 hs (by decide) h⟩
    rw [call_downcase] at h
    obtain ⟨s, rfl, hk⟩ := oneStr_ok h
    simp only [ret, Prod.mk.injEq, Res.ok.injEq] at hk
    rw [← hk.1]; exact utf8_of_encode _
  · refine ⟨?_, query_utf8 hs (by decide) h⟩
    rw [call_capitalize] at h
    obtain ⟨s, rfl, hk⟩ := oneStr_ok h
    cases s with
    | nil =>
      simp only [ret, Prod.mk.injEq, Res.ok.injEq] at hk
      rw [← hk.1]; exact Utf8Text.nil
    | cons x xs =>
      simp only [ret, Prod.mk.injEq, Res.ok.injEq] at hk
      rw [← hk.1]; exact (utf8_of_encode _).append (utf8_of_encode _)
  · refine ⟨?_, query_utf8 hs (by decide) h⟩
    rw [call_concat] at h
    unfold builtinConcat at h
    split at h
    · rename_i s hc
      simp only [ret, Prod.mk.injEq, Res.ok.injEq] at h
      rw [← h.1]; exact utf8_concat _ _ _ ha hc
    · simp [fail] at h
  · exact ⟨no_string _ (by decide) _ _ _ _ h, query_utf8 hs (by decide) h⟩
  · exact ⟨no_string _ (by decide) _ _ _ _ h, query_utf8 hs (by decide) h⟩
  · refine ⟨?_, query_utf8 hs (by decide) h⟩
    rw [call_replace_regexp_in_string] at h
    unfold builtinReplaceRegexpInString at h
    split at h
    · split at h
      · simp [fail] at h
      · rename_i hc
        simp only [ret, Prod.mk.injEq, Res.ok.injEq] at h
        rw [← h.1]
        exact replaceAll_utf8 hc ha.2.2.1 ha.2.1
    · simp [fail] at h
    · simp [fail] at h

theorem search_utf8 [TextExt] {m r : Bool} {b b' : Buffer} (hs : TextState m r b) {name : Bytes} (hn : name ∈ searchFns)
    {args : List Value} {v : Value} (ha : Utf8StringsAll args) (h : call name args b = (.ok v, b')) :
    Utf8Strings v ∧ TextState m true b' := by
  have ht := hs.text
  obtain ⟨p, hpt, hcut, hd⟩ := hs.cut
  have hle := hcut.1
  have fin : ∀ (i j : Nat) (t : Bytes), Cut b.content i → Cut b.content j →
      done { b with point := (j : Int) + 1, lastMatch := t, lastStart := (i : Int) + 1, lastEnd := (j : Int) + 1 } = (.ok v, b') →
      Utf8Strings v ∧ TextState m true b' := by
    intro i j t hi hj hk
    simp only [done, Prod.mk.injEq, Res.ok.injEq] at hk
    obtain ⟨rfl, rfl⟩ := hk
    exact ⟨Utf8Text.nil, cut_between.2 hj, hs.mark, fun _ => .inr ⟨cut_between.2 hi, cut_between.2 hj⟩⟩
  simp only [searchFns, List.mem_cons, List.not_mem_nil, or_false] at hn
  rcases hn with rfl | rfl | rfl | rfl
  · rw [call_search_forward] at h
    obtain ⟨s, rfl, hk⟩ := oneStr_ok h
    simp only [hd, atLeast0_eq, Int.toNat_natCast] at hk
    split at hk
    · simp [fail] at hk
    · rw [sliceFrom_eq _ _ hle] at hk
      simp only [] at hk
      split at hk
      · simp [fail] at hk
      · rename_i i hi
        have hocc := indexOf_some hi
        have hij : Cut (b.content.drop p) i ∧ Cut (b.content.drop p) (i + s.length) := by
          by_cases hne : s = []
          · subst hne
            have h0 : i = 0 := by
              refine Classical.byContradiction fun hn => hocc.2 0 (by omega) ⟨[], b.content.drop p, by simp, rfl⟩
            subst h0
            exact ⟨cut_zero hcut.2.2, cut_zero hcut.2.2⟩
          · exact cut_occurs hcut.2.2 ha.1 hne hocc.1
        have e1 : (p : Int) + i + 1 = ((p + i : Nat) : Int) + 1 := by omega
        have e2 : (p : Int) + i + 1 + s.length = ((p + (i + s.length) : Nat) : Int) + 1 := by omega
        rw [e2, e1] at hk
        exact fin _ _ _ (hcut.drop hij.1) (hcut.drop hij.2) hk
  · rw [call_search_backward] at h
    obtain ⟨s, rfl, hk⟩ := oneStr_ok h
    simp only [hd, atMost_eq] at hk
    rw [show min (p : Int) (b.content.length : Int) = p by omega] at hk
    rw [if_neg (by omega), sliceTo_eq _ _ hle] at hk
    simp only [] at hk
    split at hk
    · simp [fail] at hk
    · rename_i i hi
      have hocc := lastIndexOf_some hi
      have hij : Cut (b.content.take p) i ∧ Cut (b.content.take p) (i + s.length) := by
        by_cases hne : s = []
        · subst hne
          have hl : i = (b.content.take p).length := by
            have h1 := hocc.1.le
            refine Classical.byContradiction fun hn => hocc.2 (b.content.take p).length (by simp only [List.length_nil] at h1; omega)
              ⟨b.content.take p, [], by simp, rfl⟩
          rw [hl]
          exact ⟨cut_end hcut.2.1, cut_end hcut.2.1⟩
        · exact cut_occurs hcut.2.1 ha.1 hne hocc.1
      have e2 : (i : Int) + 1 + s.length = ((i + s.length : Nat) : Int) + 1 := by omega
      rw [e2] at hk
      exact fin _ _ _ (hcut.take hij.1) (hcut.take hij.2) hk
  · rw [call_re_search_forward] at h
    obtain ⟨s, rfl, hk⟩ := oneStr_ok h
    simp only [hd, atLeast0_eq, Int.toNat_natCast] at hk
    split at hk
    · simp [fail] at hk
    · split at hk
      · simp [fail] at hk
      · rename_i re hre
        rw [sliceFrom_eq _ _ hle] at hk
        simp only [] at hk
        split at hk
        · simp [fail] at hk
        · rename_i i j hij
          obtain ⟨h1, h2, h3⟩ := TextExt.find _ _ _ _ _ hre hcut.2.2 hij
          have e1 : (p : Int) + i + 1 = ((p + i : Nat) : Int) + 1 := by omega
          have e2 : (p : Int) + j + 1 = ((p + j : Nat) : Int) + 1 := by omega
          split at hk
          · simp [crash] at hk
          · rw [e2, e1] at hk
            exact fin _ _ _ (hcut.drop (cut_between.1 h2)) (hcut.drop (cut_between.1 h3)) hk
  · rw [call_re_search_backward] at h
    obtain ⟨s, rfl, hk⟩ := oneStr_ok h
    simp only [hd, atMost_eq] at hk
    rw [show min (p : Int) (b.content.length : Int) = p by omega] at hk
    rw [if_neg (by omega)] at hk
    split at hk
    · simp [fail] at hk
    · rename_i re hre
      rw [sliceTo_eq _ _ hle] at hk
      simp only [] at hk
      split at hk
      · simp [fail] at hk
      · rename_i i j hij
        obtain ⟨h1, h2, h3⟩ := TextExt.findAll _ _ _ _ _ hre hcut.2.1 (List.mem_of_getLast? hij)
        split at hk
        · simp [crash] at hk
        · exact fin _ _ _ (hcut.take (cut_between.1 h2)) (hcut.take (cut_between.1 h3)) hk

theorem mark_utf8 {m r : Bool} {b b' : Buffer} (hs : TextState m r b) {name : Bytes} (hn : name ∈ markSetters)
    {args : List Value} {v : Value} (h : call name args b = (.ok v, b')) : Utf8Strings v ∧ TextState true r b' := by
  have ht := hs.text
  obtain ⟨p, hpt, hcut, hd⟩ := hs.cut
  have hle := hcut.1
  simp only [markSetters, List.mem_cons, List.not_mem_nil, or_false] at hn
  rcases hn with rfl | rfl | rfl
  · rw [call_set_mark] at h
    obtain ⟨_, hk⟩ := noArgs_ok h
    simp only [done, Prod.mk.injEq, Res.ok.injEq] at hk
    obtain ⟨rfl, rfl⟩ := hk
    exact ⟨Utf8Text.nil, hs.point, fun _ => hs.point, hs.matched⟩
  · rw [call_mark_line] at h
    obtain ⟨n, _, hk⟩ := withCount_ok h
    obtain ⟨k, hk1, hks⟩ := scanBack_line b.content p hle
    obtain ⟨k', hk2, hit, _, hle'⟩ := fwdLines_spec b.content n.toNat p hle
    have := hks.1
    simp only [hd, hk1, hk2] at hk
    rw [incPos_le _ k (by omega), incPos_le _ k' hle'] at hk
    simp only [done, Prod.mk.injEq, Res.ok.injEq] at hk
    obtain ⟨rfl, rfl⟩ := hk
    exact ⟨Utf8Text.nil, cut_between.2 (cut_iter (fun _ _ => cut_lineNext ht) hcut hit), fun _ => cut_between.2 (cut_lineStart ht hks),
      hs.matched⟩
  · rw [call_mark_whole_buffer] at h
    obtain ⟨_, hk⟩ := noArgs_ok h
    simp only [done, Prod.mk.injEq, Res.ok.injEq] at hk
    obtain ⟨rfl, rfl⟩ := hk
    exact ⟨Utf8Text.nil, cut_between.2 (cut_end ht), fun _ => cut_between.2 (cut_zero ht), hs.matched⟩

theorem edit_utf8 {m r : Bool} {b b' : Buffer} (hs : TextState m r b) {name : Bytes}
    (hn : name ∈ [b! "insert", b! "kill-word", b! "delete-line"]) {args : List Value} {v : Value} (ha : Utf8StringsAll args)
    (h : call name args b = (.ok v, b')) : Utf8Strings v ∧ TextState false false b' := by
  have ht := hs.text
  obtain ⟨p, hpt, hcut, hd⟩ := hs.cut
  have hle := hcut.1
  simp only [List.mem_cons, List.not_mem_nil, or_false] at hn
  rcases hn with rfl | rfl | rfl
  · rw [call_insert] at h
    obtain ⟨s, rfl, hk⟩ := oneStr_ok h
    simp only [done, Prod.mk.injEq, Res.ok.injEq] at hk
    obtain ⟨rfl, rfl⟩ := hk
    have hc := (cut_append hcut.2.1 ha.1 hcut.2.2).2
    rw [List.length_take, Nat.min_eq_left hle] at hc
    have hcont : (b.insert s).content = b.content.take p ++ s ++ b.content.drop p := by
      unfold Buffer.insert
      simp only []
      split
      · have : p = 0 := by omega
        subst this; simp
      · rw [if_neg (by omega), show (b.point - 1).toNat = p by omega]
    have hpoint : (b.insert s).point = ((p + s.length : Nat) : Int) + 1 := by
      unfold Buffer.insert
      simp only []
      rw [if_pos (by omega)]; omega
    refine ⟨Utf8Text.nil, ?_, (fun h => nomatch h), (fun h => nomatch h)⟩
    rw [hcont, hpoint]
    exact cut_between.2 hc
  · rw [call_kill_word] at h
    obtain ⟨n, _, hk⟩ := withCount_ok h
    obtain ⟨k, hk', hit, _, hkle⟩ := fwdWords_spec b.content n.toNat p hle
    simp only [hd, hk'] at hk
    rw [hpt] at hk
    exact textState_splice hcut (cut_iter (fun _ _ => cut_nextWord ht) hcut hit) Utf8Text.nil (.inl rfl) hk
  · rw [call_delete_line] at h
    obtain ⟨n, _, hk⟩ := withCount_ok h
    obtain ⟨k, hk1, hks⟩ := scanBack_line b.content p hle
    obtain ⟨k', hk2, hit, _, hle'⟩ := fwdLines_spec b.content n.toNat p hle
    simp only [hd, hk1, hk2] at hk
    exact textState_splice (cut_lineStart ht hks) (cut_iter (fun _ _ => cut_lineNext ht) hcut hit) Utf8Text.nil (.inl rfl) hk

theorem region_utf8 {r : Bool} {b b' : Buffer} (hs : TextState true r b) {name : Bytes}
    (hn : name ∈ [b! "delete-region", b! "replace-region"]) {args : List Value} {v : Value} (ha : Utf8StringsAll args)
    (h : call name args b = (.ok v, b')) : Utf8Strings v ∧ TextState false false b' := by
  obtain ⟨p, hpt, hcut, hd⟩ := hs.cut
  obtain ⟨q, hqt, hqut⟩ := between_exists (hs.mark rfl)
  have hb : ∃ i j, Cut b.content i ∧ Cut b.content j ∧ regionBounds b = ((i : Int), (j : Int)) := by
    have h1 := hcut.1
    have h2 := hqut.1
    rcases Nat.lt_or_ge p q with hlt | hge
    · refine ⟨p, q, hcut, hqut, ?_⟩
      unfold regionBounds
      simp only [atLeast0_eq, atMost_eq]
      rw [if_pos (by omega), if_pos (by omega), dec64_of (by omega), dec64_of (by omega)]
      congr 1 <;> omega
    · refine ⟨q, p, hqut, hcut, ?_⟩
      unfold regionBounds
      simp only [atLeast0_eq, atMost_eq]
      rw [if_neg (by omega), if_neg (by omega), dec64_of (by omega), dec64_of (by omega)]
      congr 1 <;> omega
  obtain ⟨i, j, hi, hj, hr⟩ := hb
  have nop : done b = (.ok v, b') → Utf8Strings v ∧ TextState false false b' := by
    intro hk
    simp only [done, Prod.mk.injEq, Res.ok.injEq] at hk
    obtain ⟨rfl, rfl⟩ := hk
    exact ⟨Utf8Text.nil, hs.weaken⟩
  simp only [List.mem_cons, List.not_mem_nil, or_false] at hn
  rcases hn with rfl | rfl
  · rw [call_delete_region] at h
    obtain ⟨_, hk⟩ := noArgs_ok h
    simp only [hr] at hk
    split at hk
    · exact nop hk
    · exact textState_splice hi hj Utf8Text.nil (.inl rfl) hk
  · rw [call_replace_region] at h
    obtain ⟨s, rfl, hk⟩ := oneStr_ok h
    simp only [hr] at hk
    split at hk
    · exact nop hk
    · have e : (i : Int) + s.length + 1 = ((i + s.length : Nat) : Int) + 1 := by omega
      rw [e] at hk
      exact textState_splice hi hj ha.1 (.inr rfl) hk

theorem exchange_utf8 {r : Bool} {b b' : Buffer} (hs : TextState true r b) {args : List Value} {v : Value}
    (h : call b! "exchange-point-and-mark" args b = (.ok v, b')) : Utf8Strings v ∧ TextState true r b' := by
  rw [call_exchange_point_and_mark] at h
  obtain ⟨_, hk⟩ := noArgs_ok h
  simp only [done, Prod.mk.injEq, Res.ok.injEq] at hk
  obtain ⟨rfl, rfl⟩ := hk
  exact ⟨Utf8Text.nil, hs.mark rfl, fun _ => hs.point, hs.matched⟩

theorem replace_utf8 {m : Bool} {b b' : Buffer} (hs : TextState m true b) {args : List Value} {v : Value} (ha : Utf8StringsAll args)
    (h : call b! "replace-match" args b = (.ok v, b')) : Utf8Strings v ∧ TextState false false b' := by
  rw [call_replace_match] at h
  obtain ⟨s, rfl, hk⟩ := oneStr_ok h
  simp only [] at hk
  split at hk
  · simp [fail] at hk
  · rename_i hne
    obtain ⟨h1, h2⟩ := (hs.matched rfl).resolve_left hne
    obtain ⟨i, hi, hci⟩ := between_exists h1
    obtain ⟨j, hj, hcj⟩ := between_exists h2
    split at hk
    · simp [fail] at hk
    · rw [hi, hj] at hk
      have e1 : (i : Int) + 1 - 1 = i := by omega
      have e2 : (j : Int) + 1 - 1 = j := by omega
      have e3 : (i : Int) + s.length + 1 = ((i + s.length : Nat) : Int) + 1 := by omega
      rw [e1, e2, e3] at hk
      exact textState_splice hci hcj ha.1 (.inr rfl) hk

/-- One call of a tidy sequence, with UTF-8 strings as arguments: if it succeeds, the text is UTF-8 text, point is between characters, and
the rest of the sequence is tidy from there; its value, if it is a string, is UTF-8 text. If it fails, nothing has changed. -/
theorem C73_call [TextExt] {m r : Bool} {f : Bytes} {l : List Bytes} (hT : Tidy m r (f :: l)) (args : List Value) (ha : Utf8StringsAll args)
    (b : Buffer) (hs : TextState m r b) (hb : f = b! "beginning-of-line" → b.content ≠ []) :
    (∀ v b', call f args b = (.ok v, b') → Utf8Strings v ∧ ∃ m' r', Tidy m' r' l ∧ TextState m' r' b') ∧
    ((∀ v, (call f args b).1 ≠ .ok v) → (call f args b).2 = b) := by
  refine ⟨fun v b' h => ?_, fun h => ?_⟩
  · cases hT with
    | neutral _ _ _ _ hf hl => have := neutral_utf8 hs hf ha hb h; exact ⟨this.1, _, _, hl, this.2⟩
    | search _ _ _ _ hf hl => have := search_utf8 hs hf ha h; exact ⟨this.1, _, _, hl, this.2⟩
    | mark _ _ _ _ hf hl => have := mark_utf8 hs hf h; exact ⟨this.1, _, _, hl, this.2⟩
    | edit _ _ _ _ hf hl => have := edit_utf8 hs hf ha h; exact ⟨this.1, _, _, hl, this.2⟩
    | region _ _ _ hf hl => have := region_utf8 hs hf ha h; exact ⟨this.1, _, _, hl, this.2⟩
    | exchange _ _ hl => have := exchange_utf8 hs h; exact ⟨this.1, _, _, hl, this.2⟩
    | replace _ _ hl => have := replace_utf8 hs ha h; exact ⟨this.1, _, _, hl, this.2⟩
  · rcases hc : call f args b with ⟨r', b'⟩
    rw [hc] at h
    cases r' with
    | ok v => exact absurd rfl (h v)
    | err e => exact C24_failure_changes_nothing _ _ _ _ _ hc
    | panic =>
      have := panic_changes_nothing f args b (by rw [hc])
      rwa [hc] at this

/-! ### Whole programs -/

/-- No call of the log is beginning-of-line in an empty buffer. -/
def NoEmptyLine (log : List (Bytes × List Value × Buffer)) : Prop :=
  ∀ c ∈ log, c.1 = b! "beginning-of-line" → c.2.2.content ≠ []

/-- What evaluation of a tidy expression with continuation `l` guarantees. -/
def StaysText (l : List Bytes) {α : Type} (P : α → Prop) (x : Res Bytes α × Buffer) : Prop :=
  (∀ v, x.1 = .ok v → P v ∧ ∃ m' r', Tidy m' r' l ∧ TextState m' r' x.2) ∧ Utf8Text x.2.content

omit [Ext] in
theorem stays_fail {l : List Bytes} {α : Type} {P : α → Prop} {b : Buffer} (x : Res Bytes α) (hx : ∀ v, x ≠ .ok v)
    (h : Utf8Text b.content) : StaysText l P (x, b) := ⟨fun v hv => absurd hv (hx v), h⟩

mutual
theorem text_expr [TextExt] : ∀ (e : Value) (b : Buffer) (m r : Bool) (l : List Bytes), Utf8Strings e → Tidy m r (postorder e ++ l) →
    TextState m r b → NoEmptyLine (callLog defaultEnv e b) → StaysText l Utf8Strings (evalExpr defaultEnv e b)
  | .str s, b, m, r, l, hu, hT, hs, _ => ⟨fun v hv => by cases hv; exact ⟨hu, m, r, hT, hs⟩, hs.text⟩
  | .num s, b, m, r, l, hu, hT, hs, _ => ⟨fun v hv => by cases hv; exact ⟨hu, m, r, hT, hs⟩, hs.text⟩
  | .sym s, b, m, r, l, _, _, hs, _ => stays_fail _ (fun _ => nofun) hs.text
  | .list [], b, m, r, l, _, _, hs, _ => stays_fail _ (fun _ => nofun) hs.text
  | .list (.str s :: args), b, m, r, l, _, _, hs, _ => stays_fail _ (fun _ => nofun) hs.text
  | .list (.num s :: args), b, m, r, l, _, _, hs, _ => stays_fail _ (fun _ => nofun) hs.text
  | .list (.list s :: args), b, m, r, l, _, _, hs, _ => stays_fail _ (fun _ => nofun) hs.text
  | .list (.sym f :: args), b, m, r, l, hu, hT, hs, hz => by
    simp only [postorder, List.append_assoc] at hT
    have ih := text_args args b m r ([f] ++ l) hu.2 hT hs
    simp only [callLog] at hz
    simp only [evalExpr]
    cases hf : defaultEnv f with
    | none => exact stays_fail _ (fun _ => nofun) hs.text
    | some fn =>
      simp only [hf] at hz
      have ih := ih fun c hc => hz c (List.mem_append_left _ hc)
      cases ha : evalArgs defaultEnv args b with
      | mk x b' =>
        rw [ha] at ih hz
        cases x with
        | ok vs =>
          obtain ⟨hvs, m', r', hT', hs'⟩ := ih.1 vs rfl
          have e : call f vs b' = fn vs b' := by simp [call, hf]
          have hc := C73_call hT' vs hvs b' hs' (hz (f, vs, b') (by simp))
          rw [e] at hc
          simp only []
          rcases hx : fn vs b' with ⟨y, b''⟩
          rw [hx] at hc
          cases y with
          | ok v =>
            have h1 := hc.1 v b'' rfl
            obtain ⟨h2, m2, r2, h3, h4⟩ := h1
            exact ⟨fun w hw => by cases hw; exact ⟨h2, m2, r2, h3, h4⟩, h4.text⟩
          | err e =>
            have this : b'' = b' := hc.2 (fun _ => nofun)
            exact stays_fail _ (fun _ => nofun) (by rw [this]; exact hs'.text)
          | panic =>
            have this : b'' = b' := hc.2 (fun _ => nofun)
            exact stays_fail _ (fun _ => nofun) (by rw [this]; exact hs'.text)
        | err e => exact stays_fail _ (fun _ => nofun) ih.2
        | panic => exact stays_fail _ (fun _ => nofun) ih.2
theorem text_args [TextExt] : ∀ (as : List Value) (b : Buffer) (m r : Bool) (l : List Bytes), Utf8StringsAll as →
    Tidy m r (postorders as ++ l) → TextState m r b → NoEmptyLine (argLog defaultEnv as b) →
    StaysText l Utf8StringsAll (evalArgs defaultEnv as b)
  | [], b, m, r, l, _, hT, hs, _ => ⟨fun v hv => by cases hv; exact ⟨trivial, m, r, hT, hs⟩, hs.text⟩
  | a :: as, b, m, r, l, hu, hT, hs, hz => by
    simp only [postorders, List.append_assoc] at hT
    have ih' := fun b' m' r' hT' hs' => text_args as b' m' r' l hu.2 hT' hs'
    simp only [argLog] at hz
    have ih := text_expr a b m r _ hu.1 hT hs fun c hc => hz c (List.mem_append_left _ hc)
    simp only [evalArgs]
    cases ha : evalExpr defaultEnv a b with
    | mk x b' =>
      rw [ha] at ih hz
      cases x with
      | ok v =>
        obtain ⟨hv, m', r', hT', hs'⟩ := ih.1 v rfl
        have ih2 := ih' b' m' r' hT' hs' fun c hc => hz c (List.mem_append_right _ hc)
        cases hb : evalArgs defaultEnv as b' with
        | mk y b'' =>
          rw [hb] at ih2
          simp only [hb]
          cases y with
          | ok vs =>
            obtain ⟨hvs, h3⟩ := ih2.1 vs rfl
            exact ⟨fun w hw => by cases hw; exact ⟨⟨hv, hvs⟩, h3⟩, ih2.2⟩
          | err e => exact stays_fail _ (fun _ => nofun) ih2.2
          | panic => exact stays_fail _ (fun _ => nofun) ih2.2
      | err e => exact stays_fail _ (fun _ => nofun) ih.2
      | panic => exact stays_fail _ (fun _ => nofun) ih.2
end

theorem text_loop [TextExt] (w : List Value) : ∀ (es : List Value) (i : Nat) (v : Value) (b : Buffer) (m r : Bool),
    Utf8StringsAll es → Tidy m r (postorders es) → TextState m r b → NoEmptyLine (progLog defaultEnv es b) →
    Utf8Text (evalLoopNoTrace defaultEnv w i v es b).2.content
  | [], i, v, b, m, r, _, _, hs, _ => hs.text
  | e :: es, i, v, b, m, r, hu, hT, hs, hz => by
    simp only [postorders] at hT
    simp only [progLog] at hz
    have ih := text_expr e b m r _ hu.1 hT hs fun c hc => hz c (List.mem_append_left _ hc)
    simp only [evalLoopNoTrace]
    cases ha : evalExpr defaultEnv e b with
    | mk x b' =>
      rw [ha] at ih hz
      cases x with
      | ok v' =>
        obtain ⟨_, m', r', hT', hs'⟩ := ih.1 v' rfl
        exact text_loop w es (i + 1) v' b' m' r' hu.2 hT' hs' fun c hc => hz c (List.mem_append_right _ hc)
      | err e => exact ih.2
      | panic => exact ih.2

omit [Ext] in
theorem textState_new {text : Bytes} (h : Utf8Text text) : TextState true true (newBuffer text) :=
  ⟨cut_between.2 (cut_zero h), fun _ => cut_between.2 (cut_zero h), fun _ => .inl rfl⟩

/-- **Tidy programs keep UTF-8 text UTF-8 text**: run on UTF-8 text, a program whose strings are UTF-8 text, whose function calls (in the
order of evaluation) are tidy, and which never asks for the beginning of the line in an empty buffer, leaves UTF-8 text, whether it
succeeds or fails. -/
theorem C73_program [TextExt] (prog : List Value) (text : Bytes) (ht : Utf8Text text) (hu : Utf8StringsAll prog)
    (hT : Tidy true true (postorders prog))
    (hz : ∀ c ∈ progLog defaultEnv prog (newBuffer text), c.1 = b! "beginning-of-line" → c.2.2.content ≠ []) :
    Utf8Text (eval defaultEnv prog (newBuffer text)).2.content :=
  text_loop prog prog 0 _ _ true true hu hT (textState_new ht) hz

mutual
theorem callLog_names : ∀ (e : Value) (b : Buffer), ∀ c ∈ callLog defaultEnv e b, c.1 ∈ postorder e
  | .str s, b, c, hc => by simp [callLog] at hc
  | .num s, b, c, hc => by simp [callLog] at hc
  | .sym s, b, c, hc => by simp [callLog] at hc
  | .list [], b, c, hc => by simp [callLog] at hc
  | .list (.str s :: args), b, c, hc => by simp [callLog] at hc
  | .list (.num s :: args), b, c, hc => by simp [callLog] at hc
  | .list (.list s :: args), b, c, hc => by simp [callLog] at hc
  | .list (.sym f :: args), b, c, hc => by
    have ih := argLog_names args b c
    simp only [callLog] at hc
    simp only [postorder]
    split at hc
    · simp at hc
    · rcases List.mem_append.1 hc with hc | hc
      · exact List.mem_append_left _ (ih hc)
      · split at hc
        · rw [List.mem_singleton] at hc; subst hc; simp
        · simp at hc
theorem argLog_names : ∀ (as : List Value) (b : Buffer), ∀ c ∈ argLog defaultEnv as b, c.1 ∈ postorders as
  | [], b, c, hc => by simp [argLog] at hc
  | a :: as, b, c, hc => by
    have ih' := fun b' => argLog_names as b' c
    have ih := callLog_names a b c
    simp only [argLog] at hc
    simp only [postorders]
    rcases List.mem_append.1 hc with hc | hc
    · exact List.mem_append_left _ (ih hc)
    · split at hc
      · exact List.mem_append_right _ (ih' _ hc)
      · simp at hc
end

theorem progLog_names : ∀ (es : List Value) (b : Buffer), ∀ c ∈ progLog defaultEnv es b, c.1 ∈ postorders es
  | [], b, c, hc => by simp [progLog] at hc
  | e :: es, b, c, hc => by
    simp only [progLog] at hc
    simp only [postorders]
    rcases List.mem_append.1 hc with hc | hc
    · exact List.mem_append_left _ (callLog_names e b c hc)
    · split at hc
      · exact List.mem_append_right _ (progLog_names es _ c hc)
      · simp at hc

/-- The same with conditions on the program alone: a tidy program that does not call beginning-of-line. -/
theorem C73_tidy_program [TextExt] (prog : List Value) (text : Bytes) (ht : Utf8Text text) (hu : Utf8StringsAll prog)
    (hT : Tidy true true (postorders prog)) (hn : b! "beginning-of-line" ∉ postorders prog) :
    Utf8Text (eval defaultEnv prog (newBuffer text)).2.content :=
  C73_program prog text ht hu hT fun c hc he => absurd (he ▸ progLog_names prog _ c hc) hn

/-! ### The conditions are needed -/

/-- A decision procedure for `Tidy`. -/
def tidyCheck : Bool → Bool → List Bytes → Bool
  | _, _, [] => true
  | m, r, f :: l =>
    if f ∈ neutralFns then tidyCheck m r l
    else if f ∈ searchFns then tidyCheck m true l
    else if f ∈ markSetters then tidyCheck true r l
    else if f ∈ [b! "insert", b! "kill-word", b! "delete-line"] then tidyCheck false false l
    else if f ∈ [b! "delete-region", b! "replace-region"] then m && tidyCheck false false l
    else if f = b! "exchange-point-and-mark" then m && tidyCheck true r l
    else if f = b! "replace-match" then r && tidyCheck false false l
    else false

omit [Ext] in
theorem tidyCheck_sound : ∀ (l : List Bytes) (m r : Bool), tidyCheck m r l = true → Tidy m r l
  | [], m, r, _ => .nil m r
  | f :: l, m, r, h => by
    simp only [tidyCheck] at h
    have ih := fun m r => tidyCheck_sound l m r
    split at h
    · exact .neutral _ _ _ _ ‹_› (ih _ _ h)
    · split at h
      · exact .search _ _ _ _ ‹_› (ih _ _ h)
      · split at h
        · exact .mark _ _ _ _ ‹_› (ih _ _ h)
        · split at h
          · exact .edit _ _ _ _ ‹_› (ih _ _ h)
          · split at h
            · rw [Bool.and_eq_true] at h
              obtain ⟨rfl, h⟩ := h
              exact .region _ _ _ ‹_› (ih _ _ h)
            · split at h
              · rw [Bool.and_eq_true] at h
                obtain ⟨rfl, h⟩ := h
                rename_i he
                subst he
                exact .exchange _ _ (ih _ _ h)
              · split at h
                · rw [Bool.and_eq_true] at h
                  obtain ⟨rfl, h⟩ := h
                  rename_i he
                  subst he
                  exact .replace _ _ (ih _ _ h)
                · cases h

/-- Every function of the environment is in one of the classes. -/
theorem C73_classes : ∀ f ∈ allNames, f ∈ neutralFns ∨ f ∈ searchFns ∨ f ∈ markSetters ∨ f ∈ byteFns ∨
    f ∈ [b! "insert", b! "kill-word", b! "delete-line", b! "delete-region", b! "replace-region", b! "exchange-point-and-mark",
      b! "replace-match"] := by
  intro f hf
  each_name hf <;> decide

/-- A command as an expression. -/
def cmd (f : Bytes) (args : List Value) : Value := .list (.sym f :: args)

mutual
/-- `Utf8Strings` can be computed. -/
def decUtf8Strings : ∀ v : Value, Decidable (Utf8Strings v)
  | .str s => inferInstanceAs (Decidable (Utf8Text s))
  | .num _ => isTrue trivial
  | .sym _ => isTrue trivial
  | .list l => decUtf8StringsAll l
@[inherit_doc decUtf8Strings]
def decUtf8StringsAll : ∀ l : List Value, Decidable (Utf8StringsAll l)
  | [] => isTrue trivial
  | v :: vs => @instDecidableAnd _ _ (decUtf8Strings v) (decUtf8StringsAll vs)
end

instance (v : Value) : Decidable (Utf8Strings v) := decUtf8Strings v
instance (l : List Value) : Decidable (Utf8StringsAll l) := decUtf8StringsAll l

/-- The program succeeds on the UTF-8 text, has only UTF-8 strings, is tidy but for its calls of `f`, and leaves something that is not
UTF-8 text. -/
def BreaksText (f text : Bytes) (prog : List Value) : Prop :=
  Utf8Text text ∧ Utf8StringsAll prog ∧ Tidy true true ((postorders prog).filter (· ≠ f)) ∧ b! "beginning-of-line" ∉ postorders prog ∧
    (∃ v, (eval defaultEnv prog (newBuffer text)).1 = .ok v) ∧ ¬ Utf8Text (eval defaultEnv prog (newBuffer text)).2.content

theorem breaksText (f text : Bytes) (prog : List Value) (c : Bytes) (h1 : Utf8Text text) (h2 : Utf8StringsAll prog)
    (h3 : tidyCheck true true ((postorders prog).filter (· ≠ f)) = true ∧ b! "beginning-of-line" ∉ postorders prog)
    (h4 : (eval defaultEnv prog (newBuffer text)).1 = .ok (.str [])) (h5 : (eval defaultEnv prog (newBuffer text)).2.content = c)
    (h6 : ¬ Utf8Text c) : BreaksText f text prog :=
  ⟨h1, h2, tidyCheck_sound _ _ _ h3.1, h3.2, ⟨_, h4⟩, by rw [h5]; exact h6⟩

/-- Each of the functions left out of `Tidy` can turn UTF-8 text into something else, in a program that is tidy otherwise. (The text is
an é, in UTF-8 the bytes C3 A9.) -/
theorem C73_excluded : ∀ f ∈ byteFns, ∃ text prog, BreaksText f text prog := by
  simp only [byteFns, List.forall_mem_cons, List.not_mem_nil, false_implies, implies_true, and_true]
  refine ⟨⟨[0xC3, 0xA9], [cmd b! "forward-char" [], cmd b! "insert" [.str b! "x"]],
      breaksText _ _ _ [0xC3, 0x78, 0xA9] ?_ ?_ ?_ rfl rfl ?_⟩,
    ⟨[0xC3, 0xA9], [cmd b! "end-of-buffer" [], cmd b! "backward-char" [], cmd b! "insert" [.str b! "x"]],
      breaksText _ _ _ [0xC3, 0x78, 0xA9] ?_ ?_ ?_ rfl rfl ?_⟩,
    ⟨[0xC3, 0xA9], [cmd b! "goto-char" [numV 2], cmd b! "insert" [.str b! "x"]],
      breaksText _ _ _ [0xC3, 0x78, 0xA9] ?_ ?_ ?_ rfl rfl ?_⟩,
    ⟨[0xC3, 0xA9], [cmd b! "delete-char" []],
      breaksText _ _ _ [0xA9] ?_ ?_ ?_ rfl rfl ?_⟩,
    ⟨[0xC3, 0xA9], [cmd b! "end-of-buffer" [], cmd b! "delete-backward-char" []],
      breaksText _ _ _ [0xC3] ?_ ?_ ?_ rfl rfl ?_⟩,
    ⟨[0xC3, 0xA9], [cmd b! "set-mark-command" [numV 2], cmd b! "delete-region" []],
      breaksText _ _ _ [0xA9] ?_ ?_ ?_ rfl rfl ?_⟩,
    ⟨[0xC3, 0xA9, 0x0A], [cmd b! "kill-line" []],
      breaksText _ _ _ [0xC3, 0x0A] ?_ ?_ ?_ rfl rfl ?_⟩,
    ⟨[0x61, 0xC3, 0xA9], [cmd b! "forward-word" [], cmd b! "backward-kill-word" []],
      breaksText _ _ _ [0xA9] ?_ ?_ ?_ rfl rfl ?_⟩,
    ⟨[0xC3, 0xA9], [cmd b! "insert" [cmd b! "buffer-substring" [numV 1, numV 2]]],
      breaksText _ _ _ [0xC3, 0xC3, 0xA9] ?_ ?_ ?_ rfl rfl ?_⟩,
    ⟨[0xC3, 0xA9], [cmd b! "insert" [cmd b! "substring" [.str [0xC3, 0xA9], numV 1, numV 2]]],
      breaksText _ _ _ [0xC3, 0xC3, 0xA9] ?_ ?_ ?_ rfl rfl ?_⟩⟩ <;> decide

/-- Using the mark after an edit: the mark was set behind the é, the text before it grew by one byte. -/
theorem C73_false_stale_mark : (eval defaultEnv [cmd b! "end-of-buffer" [], cmd b! "set-mark" [], cmd b! "goto-line" [numV 1],
    cmd b! "insert" [.str b! "a"], cmd b! "delete-region" []] (newBuffer [0xC3, 0xA9])).2.content = [0x61, 0xA9] ∧
    ¬ Utf8Text [0x61, 0xA9] := ⟨rfl, by decide⟩

/-- Using the recorded match after an edit. -/
theorem C73_false_stale_match : (eval defaultEnv [cmd b! "search-forward" [.str [0xC3, 0xA9]], cmd b! "beginning-of-buffer" [],
    cmd b! "insert" [.str b! "x"], cmd b! "replace-match" [.str b! "y"]] (newBuffer [0x61, 0xC3, 0xA9])).2.content =
      [0x78, 0x79, 0xA9] ∧ ¬ Utf8Text [0x78, 0x79, 0xA9] := ⟨rfl, by decide⟩

/-- beginning-of-line in an empty buffer puts point before the first position; an insertion then leaves point inside the é. -/
theorem C73_false_empty_line : (eval defaultEnv [cmd b! "beginning-of-line" [], cmd b! "insert" [.str [0xC3, 0xA9]],
    cmd b! "insert" [.str b! "x"]] (newBuffer [])).2.content = [0xC3, 0x78, 0xA9] ∧ ¬ Utf8Text [0xC3, 0x78, 0xA9] :=
  ⟨rfl, by decide⟩

end Texted
