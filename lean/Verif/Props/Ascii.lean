import Verif.Props.Utf8Text
/- C73, continued: edits bring in no new bytes, and ASCII text stays ASCII text. -/
namespace Texted
variable [Ext]

omit [Ext] in
theorem mem_sliceTo {c p : Bytes} {j : Int} (h : sliceTo c j = some p) : ∀ x ∈ p, x ∈ c := by
  unfold sliceTo at h
  split at h
  · cases h; exact fun x hx => List.mem_of_mem_take hx
  · cases h

omit [Ext] in
theorem mem_sliceFrom {c p : Bytes} {j : Int} (h : sliceFrom c j = some p) : ∀ x ∈ p, x ∈ c := by
  unfold sliceFrom at h
  split at h
  · cases h; exact fun x hx => List.mem_of_mem_drop hx
  · cases h

omit [Ext] in
theorem mem_slice {c p : Bytes} {i j : Int} (h : slice c i j = some p) : ∀ x ∈ p, x ∈ c := by
  unfold slice at h
  split at h
  · cases h; exact fun x hx => List.mem_of_mem_drop (List.mem_of_mem_take hx)
  · cases h

omit [Ext] in
theorem mem_splice {b : Buffer} {i j p : Int} {t : Bytes} : ∀ x ∈ (spliceOr b i t j p).2.content, x ∈ b.content ∨ x ∈ t := by
  intro x hx
  unfold spliceOr at hx
  split at hx
  · rename_i h1 h2
    simp only [done, List.mem_append] at hx
    rcases hx with (hx | hx) | hx
    · exact .inl (mem_sliceTo h1 x hx)
    · exact .inr hx
    · exact .inl (mem_sliceFrom h2 x hx)
  · exact .inl hx

/-- **Edits bring in no new bytes**: after any call, whatever the state and the arguments, every byte of the text was in the text before
or is in a string argument. -/
theorem C73_no_new_bytes (name : Bytes) (args : List Value) (b : Buffer) :
    ∀ x ∈ (call name args b).2.content, x ∈ b.content ∨ ∃ s, .str s ∈ args ∧ x ∈ s := by
  by_cases hn : name ∈ editNames
  · have one : ∀ (s : Bytes) (i j p : Int) (x : UInt8), x ∈ (spliceOr b i s j p).2.content →
        x ∈ b.content ∨ ∃ s', Value.str s' ∈ [Value.str s] ∧ x ∈ s' := fun s i j p x hx =>
      (mem_splice x hx).elim .inl fun h => .inr ⟨s, by simp, h⟩
    have del : ∀ (i j p : Int) (x : UInt8), x ∈ (spliceOr b i [] j p).2.content → x ∈ b.content := fun i j p x hx =>
      (mem_splice x hx).elim id fun h => nomatch h
    simp only [editNames, List.mem_cons, List.not_mem_nil, or_false] at hn
    rcases hn with rfl | rfl | rfl | rfl | rfl | rfl | rfl | rfl | rfl | rfl
    · rw [call_insert]
      unfold builtinInsert oneStr
      split
      · rename_i s
        intro x hx
        have : x ∈ b.content ∨ x ∈ s := by
          simp only [done, Buffer.insert] at hx
          split at hx
          · exact (List.mem_append.1 hx).symm
          · split at hx
            · exact List.mem_append.1 hx
            · rcases List.mem_append.1 hx with hx | hx
              · rcases List.mem_append.1 hx with hx | hx
                · exact .inl (List.mem_of_mem_take hx)
                · exact .inr hx
              · exact .inl (List.mem_of_mem_drop hx)
        exact this.imp id fun h => ⟨s, by simp, h⟩
      · exact fun x hx => .inl hx
      · exact fun x hx => .inl hx
    · rw [call_replace_match]
      unfold builtinReplaceMatch oneStr
      split
      · split
        · exact fun x hx => .inl hx
        · dsimp only
          split
          · exact fun x hx => .inl hx
          · exact one _ _ _ _
      · exact fun x hx => .inl hx
      · exact fun x hx => .inl hx
    · rw [call_replace_region]
      unfold builtinReplaceRegion oneStr
      split
      · dsimp only
        split
        · exact fun x hx => .inl hx
        · exact one _ _ _ _
      · exact fun x hx => .inl hx
      · exact fun x hx => .inl hx
    · rw [call_delete_char]
      unfold builtinDeleteChar withCount
      split
      · dsimp only
        split
        · exact fun x hx => .inl hx
        · exact fun x hx => .inl (del _ _ _ x hx)
      · exact fun x hx => .inl hx
    · rw [call_delete_backward_char]
      unfold builtinDeleteBackwardChar withCount
      split
      · dsimp only
        split
        · exact fun x hx => .inl hx
        · exact fun x hx => .inl (del _ _ _ x hx)
      · exact fun x hx => .inl hx
    · rw [call_delete_region]
      unfold builtinDeleteRegion noArgs
      split
      · dsimp only
        split
        · exact fun x hx => .inl hx
        · exact fun x hx => .inl (del _ _ _ x hx)
      · exact fun x hx => .inl hx
    · rw [call_delete_line]
      unfold builtinDeleteLine withCount
      split
      · dsimp only
        split
        · exact fun x hx => .inl (del _ _ _ x hx)
        · exact fun x hx => .inl hx
      · exact fun x hx => .inl hx
    · rw [call_kill_line]
      unfold builtinKillLine withCount
      split
      · dsimp only
        split
        · exact fun x hx => .inl hx
        · split
          · split
            · exact fun x hx => .inl hx
            · exact fun x hx => .inl (del _ _ _ x hx)
          · split
            · exact fun x hx => .inl hx
            · exact fun x hx => .inl (del _ _ _ x hx)
      · exact fun x hx => .inl hx
    · rw [call_kill_word]
      unfold builtinKillWord withCount
      split
      · dsimp only
        split
        · exact fun x hx => .inl hx
        · exact fun x hx => .inl (del _ _ _ x hx)
      · exact fun x hx => .inl hx
    · rw [call_backward_kill_word]
      unfold builtinBackwardKillWord withCount
      split
      · dsimp only
        split
        · exact fun x hx => .inl hx
        · exact fun x hx => .inl (del _ _ _ x hx)
      · exact fun x hx => .inl hx
  · rw [C23_text_unchanged name hn]; exact fun x hx => .inl hx

/-! ### Values -/

omit [Ext] in
theorem ascii_append {s t : Bytes} (hs : AsciiText s) (ht : AsciiText t) : AsciiText (s ++ t) := fun x hx =>
  (List.mem_append.1 hx).elim (hs x) (ht x)

omit [Ext] in
theorem ascii_of_mem {s t : Bytes} (hs : AsciiText s) (h : ∀ x ∈ t, x ∈ s) : AsciiText t := fun x hx => hs x (h x hx)

theorem upperRune_ascii (n : Nat) (h : n < 128) : ∃ m, m < 128 ∧ upperRune (Char.ofNat n) = Char.ofNat m := by
  have ht := toNat_ofNat_valid n (.inl (by omega))
  unfold upperRune
  simp only [ht]
  split
  · split
    · exact ⟨_, by omega, rfl⟩
    · exact ⟨n, h, rfl⟩
  · omega

theorem lowerRune_ascii (n : Nat) (h : n < 128) : ∃ m, m < 128 ∧ lowerRune (Char.ofNat n) = Char.ofNat m := by
  have ht := toNat_ofNat_valid n (.inl (by omega))
  unfold lowerRune
  simp only [ht]
  split
  · split
    · exact ⟨_, by omega, rfl⟩
    · exact ⟨n, h, rfl⟩
  · omega

omit [Ext] in
theorem mapRunes_ascii (f : Char → Char) (hf : ∀ n, n < 128 → ∃ m, m < 128 ∧ f (Char.ofNat n) = Char.ofNat m) :
    ∀ s : Bytes, AsciiText s → AsciiText (encodeAll ((s.map fun x => Char.ofNat x.toNat).map f))
  | [], _ => fun x hx => nomatch hx
  | x :: s, h => by
    obtain ⟨m, hm, he⟩ := hf x.toNat (h x List.mem_cons_self)
    have ih := mapRunes_ascii f hf s fun y hy => h y (List.mem_cons_of_mem _ hy)
    simp only [encodeAll] at ih
    simp only [List.map_cons, encodeAll, List.flatMap_cons, he, encodeRune_ascii m hm, List.cons_append, List.nil_append]
    intro y hy
    rcases List.mem_cons.1 hy with rfl | hy
    · simp; omega
    · exact ih y hy

theorem ascii_toUpper {s : Bytes} (h : AsciiText s) : AsciiText (toUpper s) := by
  unfold toUpper
  rw [decodeAll_ascii s h]
  exact mapRunes_ascii _ upperRune_ascii s h

theorem ascii_toLower {s : Bytes} (h : AsciiText s) : AsciiText (toLower s) := by
  unfold toLower
  rw [decodeAll_ascii s h]
  exact mapRunes_ascii _ lowerRune_ascii s h

omit [Ext] in
theorem concat_ascii : ∀ (args : List Value) (i : Nat) (s : Bytes), AsciiStringsAll args → concatLoop i args = .ok s → AsciiText s
  | [], i, s, _, h => by cases h; exact fun x hx => nomatch hx
  | .str t :: rest, i, s, hu, h => by
    simp only [concatLoop] at h
    split at h
    · rename_i r hr
      cases h
      exact ascii_append hu.1 (concat_ascii rest _ r hu.2 hr)
    · cases h
  | .num _ :: _, _, _, _, h => by cases h
  | .sym _ :: _, _, _, _, h => by cases h
  | .list _ :: _, _, _, _, h => by cases h

omit [Ext] in
theorem matchText_mem (s : Bytes) : ∀ g, ∀ x ∈ matchText s g, x ∈ s
  | some (i, j), x, hx => List.mem_of_mem_drop (List.mem_of_mem_take hx)
  | none, x, hx => nomatch hx

omit [Ext] in
theorem lookupName_mem (s name : Bytes) : ∀ ns gs, ∀ x ∈ lookupName s name ns gs, x ∈ s
  | n :: ns, g :: gs, x, hx => by
    simp only [lookupName] at hx
    split at hx
    · exact matchText_mem s g x hx
    · exact lookupName_mem s name ns gs x hx
  | [], _, x, hx => by simp [lookupName] at hx
  | _ :: _, [], x, hx => by simp [lookupName] at hx

omit [Ext] in
theorem refText_mem (re : Regex) (s : Bytes) (m : Nat × Nat) (name : Bytes) : ∀ x ∈ refText re s m name, x ∈ s := by
  unfold refText
  split
  · exact matchText_mem s _
  · exact matchText_mem s _
  · exact lookupName_mem s _ _ _

theorem extractRef_mem {t name rest : Bytes} (h : extractRef t = some (name, rest)) : ∀ x ∈ rest, x ∈ t := by
  unfold extractRef at h
  split at h
  · dsimp only at h
    split at h
    · cases h
    · split at h
      · cases h; exact fun x hx => List.mem_of_mem_drop (List.mem_of_mem_drop hx)
      · cases h
  · dsimp only at h
    split at h
    · cases h
    · cases h; exact fun x hx => List.mem_of_mem_drop hx

theorem expandLoop_mem (re : Regex) (s : Bytes) (m : Nat × Nat) : ∀ f t, ∀ x ∈ expandLoop re s m f t, x ∈ t ∨ x ∈ s
  | 0, t, x, hx => by simp [expandLoop] at hx
  | f + 1, [], x, hx => by simp [expandLoop] at hx
  | f + 1, c :: t, x, hx => by
    simp only [expandLoop] at hx
    split at hx
    · rcases List.mem_cons.1 hx with rfl | hx
      · exact .inl List.mem_cons_self
      · exact (expandLoop_mem re s m f t x hx).imp (List.mem_cons_of_mem _) id
    · rename_i hc
      have hc : c = 36 := Decidable.of_not_not hc
      subst hc
      split at hx
      · rcases List.mem_cons.1 hx with rfl | hx
        · exact .inl List.mem_cons_self
        · exact (expandLoop_mem re s m f _ x hx).imp (fun h => List.mem_cons_of_mem _ (List.mem_of_mem_drop h)) id
      · split at hx
        · rcases List.mem_cons.1 hx with rfl | hx
          · exact .inl List.mem_cons_self
          · exact (expandLoop_mem re s m f t x hx).imp (List.mem_cons_of_mem _) id
        · rename_i he
          rcases List.mem_append.1 hx with hx | hx
          · exact .inr (refText_mem re s m _ x hx)
          · exact (expandLoop_mem re s m f _ x hx).imp (fun h => List.mem_cons_of_mem _ (extractRef_mem he x h)) id

theorem replaceLoop_mem (re : Regex) (s t : Bytes) : ∀ l last, ∀ x ∈ replaceLoop re s t last l, x ∈ t ∨ x ∈ s
  | [], last, x, hx => .inr (List.mem_of_mem_drop hx)
  | (i, j) :: l, last, x, hx => by
    simp only [replaceLoop] at hx
    rcases List.mem_append.1 hx with hx | hx
    · rcases List.mem_append.1 hx with hx | hx
      · exact .inr (List.mem_of_mem_drop (List.mem_of_mem_take hx))
      · exact expandLoop_mem re s (i, j) _ _ x hx
    · exact replaceLoop_mem re s t l j x hx

/-- The functions whose value can be a string that is not empty. -/
def stringFns : List Bytes := [b! "buffer-substring", b! "substring", b! "upcase", b! "downcase", b! "capitalize", b! "concat",
  b! "replace-regexp-in-string"]

theorem no_string_ascii (name : Bytes) (hn : name ∉ stringFns) (args : List Value) (b : Buffer) :
    ∀ v, (call name args b).1 = .ok v → AsciiStrings v := by
  by_cases h : name ∈ allNames
  · each_name h <;> first | (exfalso; revert hn; decide) | (branches <;>
      first
        | (intro v h; subst h; simp [AsciiStrings, AsciiText, numV, symT, symNil])
        | simp [AsciiStrings, AsciiText, numV, symT, symNil])
  · rw [call_unknown name h]; intro v hv; cases hv

/-- **One call keeps ASCII text ASCII text**, whatever the function, the state of the buffer and the regular expression engine. -/
theorem C73_ascii_call (name : Bytes) (args : List Value) (ha : AsciiStringsAll args) (b : Buffer) (hb : AsciiText b.content) :
    AsciiText (call name args b).2.content ∧ ∀ v, (call name args b).1 = .ok v → AsciiStrings v := by
  have mem : ∀ {l : List Value}, AsciiStringsAll l → ∀ s, .str s ∈ l → AsciiText s := by
    intro l
    induction l with
    | nil => intro _ s hs; exact nomatch hs
    | cons v vs ih =>
      intro h s hs
      rcases List.mem_cons.1 hs with rfl | hs
      · exact h.1
      · exact ih h.2 s hs
  have core : ∀ (s : Bytes) (i j : Int) v, AsciiText s → (substringCore s i j b).1 = .ok v → AsciiStrings v := by
    intro s i j v hs h
    unfold substringCore at h
    dsimp only at h
    split at h
    · cases h; exact fun x hx => nomatch hx
    · split at h
      · cases h
      · rename_i hr; cases h; exact ascii_of_mem hs (mem_slice hr)
  refine ⟨fun x hx => ?_, ?_⟩
  · rcases C73_no_new_bytes name args b x hx with h | ⟨s, hs, h⟩
    · exact hb x h
    · exact mem ha s hs x h
  · by_cases hn : name ∈ stringFns
    · intro v hv
      simp only [stringFns, List.mem_cons, List.not_mem_nil, or_false] at hn
      rcases hn with rfl | rfl | rfl | rfl | rfl | rfl | rfl
      · rw [call_buffer_substring] at hv
        revert hv
        unfold builtinBufferSubstring
        dsimp only
        repeat' split
        all_goals first
          | (intro hv; cases hv; done)
          | (intro hv; cases hv; exact fun x hx => absurd hx List.not_mem_nil)
          | (intro hv; cases hv; rename_i hr; exact ascii_of_mem hb (mem_slice hr))
          | exact core _ _ _ _ hb
      · rw [call_substring] at hv
        revert hv
        unfold builtinSubstring
        split
        · exact core _ _ _ _ ha.1
        · exact core _ _ _ _ ha.1
        · intro hv; cases hv
        · split <;> (intro hv; cases hv)
        · split <;> (intro hv; cases hv)
        · intro hv; cases hv
      · rw [call_upcase] at hv
        revert hv; unfold builtinUpcase oneStr
        split
        · intro hv; cases hv; exact ascii_toUpper ha.1
        · intro hv; cases hv
        · intro hv; cases hv
      · rw [call_downcase] at hv
        revert hv; unfold builtinDowncase oneStr
        split
        · intro hv; cases hv; exact ascii_toLower ha.1
        · intro hv; cases hv
        · intro hv; cases hv
      · rw [call_capitalize] at hv
        revert hv; unfold builtinCapitalize oneStr
        split
        · dsimp only
          split
          · intro hv; cases hv; exact fun x hx => nomatch hx
          · intro hv; cases hv
            rename_i x xs
            refine ascii_append (ascii_toUpper ?_) (ascii_toLower fun y hy => ha.1 y (List.mem_cons_of_mem _ hy))
            have hx := ha.1 x List.mem_cons_self
            rw [encodeRune_ascii _ hx]
            intro y hy
            rw [List.mem_singleton] at hy
            subst hy; simpa using hx
        · intro hv; cases hv
        · intro hv; cases hv
      · rw [call_concat] at hv
        revert hv; unfold builtinConcat
        split
        · rename_i hc; intro hv; cases hv; exact concat_ascii _ _ _ ha hc
        · intro hv; cases hv
      · rw [call_replace_regexp_in_string] at hv
        revert hv; unfold builtinReplaceRegexpInString
        split
        · split
          · intro hv; cases hv
          · intro hv; cases hv
            intro x hx
            exact (replaceLoop_mem _ _ _ _ _ x hx).elim (ha.2.1 x) (ha.2.2.1 x)
        · intro hv; cases hv
        · intro hv; cases hv
    · exact no_string_ascii name hn args b

mutual
theorem ascii_expr : ∀ (e : Value) (b : Buffer), AsciiStrings e → AsciiText b.content →
    AsciiText (evalExpr defaultEnv e b).2.content ∧ ∀ v, (evalExpr defaultEnv e b).1 = .ok v → AsciiStrings v
  | .str s, b, hu, hb => ⟨hb, fun v hv => by cases hv; exact hu⟩
  | .num s, b, hu, hb => ⟨hb, fun v hv => by cases hv; exact hu⟩
  | .sym s, b, _, hb => ⟨hb, fun v hv => nomatch hv⟩
  | .list [], b, _, hb => ⟨hb, fun v hv => nomatch hv⟩
  | .list (.str s :: args), b, _, hb => ⟨hb, fun v hv => nomatch hv⟩
  | .list (.num s :: args), b, _, hb => ⟨hb, fun v hv => nomatch hv⟩
  | .list (.list s :: args), b, _, hb => ⟨hb, fun v hv => nomatch hv⟩
  | .list (.sym f :: args), b, hu, hb => by
    have ih := ascii_args args b hu.2 hb
    simp only [evalExpr]
    cases hf : defaultEnv f with
    | none => exact ⟨hb, fun v hv => nomatch hv⟩
    | some fn =>
      rcases ha : evalArgs defaultEnv args b with ⟨x, b'⟩
      rw [ha] at ih
      cases x with
      | ok vs =>
        have hc := C73_ascii_call f vs (ih.2 vs rfl) b' ih.1
        have e : call f vs b' = fn vs b' := by simp [call, hf]
        rw [e] at hc
        exact hc
      | err e => exact ⟨ih.1, fun v hv => nomatch hv⟩
      | panic => exact ⟨ih.1, fun v hv => nomatch hv⟩
theorem ascii_args : ∀ (as : List Value) (b : Buffer), AsciiStringsAll as → AsciiText b.content →
    AsciiText (evalArgs defaultEnv as b).2.content ∧ ∀ vs, (evalArgs defaultEnv as b).1 = .ok vs → AsciiStringsAll vs
  | [], b, _, hb => ⟨hb, fun v hv => by cases hv; trivial⟩
  | a :: as, b, hu, hb => by
    have ih' := fun b' hb' => ascii_args as b' hu.2 hb'
    have ih := ascii_expr a b hu.1 hb
    simp only [evalArgs]
    rcases ha : evalExpr defaultEnv a b with ⟨x, b'⟩
    rw [ha] at ih
    cases x with
    | ok v =>
      have ih2 := ih' b' ih.1
      rcases hb : evalArgs defaultEnv as b' with ⟨y, b''⟩
      rw [hb] at ih2
      simp only [hb]
      cases y with
      | ok vs => exact ⟨ih2.1, fun w hw => by cases hw; exact ⟨ih.2 v rfl, ih2.2 vs rfl⟩⟩
      | err e => exact ⟨ih2.1, fun v hv => nomatch hv⟩
      | panic => exact ⟨ih2.1, fun v hv => nomatch hv⟩
    | err e => exact ⟨ih.1, fun v hv => nomatch hv⟩
    | panic => exact ⟨ih.1, fun v hv => nomatch hv⟩
end

theorem ascii_loop (w : List Value) : ∀ (es : List Value) (i : Nat) (v : Value) (b : Buffer), AsciiStringsAll es → AsciiText b.content →
    AsciiText (evalLoopNoTrace defaultEnv w i v es b).2.content
  | [], i, v, b, _, hb => hb
  | e :: es, i, v, b, hu, hb => by
    have ih := ascii_expr e b hu.1 hb
    simp only [evalLoopNoTrace]
    rcases ha : evalExpr defaultEnv e b with ⟨x, b'⟩
    rw [ha] at ih
    cases x with
    | ok v' => exact ascii_loop w es (i + 1) v' b' hu.2 ih.1
    | err e => exact ih.1
    | panic => exact ih.1

/-- **ASCII text stays ASCII text**: run on ASCII text, any program whose strings are ASCII leaves ASCII text, whatever functions it calls
and whether it succeeds or fails. -/
theorem C73_ascii (prog : List Value) (text : Bytes) (ht : AsciiText text) (hu : AsciiStringsAll prog) :
    AsciiText (eval defaultEnv prog (newBuffer text)).2.content :=
  ascii_loop prog prog 0 _ _ hu ht

omit [Ext] in
/-- ASCII text is UTF-8 text. -/
theorem C73_ascii_utf8 (s : Bytes) (h : AsciiText s) : Utf8Text s := utf8_encodeAll.2 ⟨_, (ascii_encodeAll s h).symm⟩

/-- A program with functions that work with numbers of bytes. -/
example : AsciiText b! "some text" ∧ AsciiStringsAll [cmd b! "forward-char" [numV 3], cmd b! "delete-char" [numV 2],
    cmd b! "insert" [cmd b! "upcase" [.str b! "xyz"]]] ∧
    (eval defaultEnv [cmd b! "forward-char" [numV 3], cmd b! "delete-char" [numV 2],
      cmd b! "insert" [cmd b! "upcase" [.str b! "xyz"]]] (newBuffer b! "some text")).2.content = b! "somXYZtext" :=
  ⟨by unfold AsciiText; decide, by simp only [cmd, AsciiStringsAll, AsciiStrings, AsciiText, numV]; decide, rfl⟩

end Texted
