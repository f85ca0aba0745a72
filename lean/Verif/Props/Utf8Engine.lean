import Verif.Props.Utf8Text
/- C73, continued: an engine that meets what is asked of the regular expression engine, and programs that meet the conditions. -/
namespace Texted

/-- In UTF-8 text the rune boundaries lie between characters. -/
theorem cut_boundary {s : Bytes} (hs : Utf8Text s) : ∀ n, boundary s n ≤ s.length → Cut s (boundary s n)
  | 0, _ => cut_zero hs
  | n + 1, h => by
    have hlt := boundary_lt s n
    have ih := cut_boundary hs n (by omega)
    have hd := ih.2.2
    obtain ⟨cs, hcs⟩ := utf8_encodeAll.1 hd
    simp only [boundary, runeStep] at h hlt ⊢
    cases cs with
    | nil =>
      have h0 := congrArg List.length hcs
      simp [encodeAll] at h0
      omega
    | cons c cs =>
      have hl := encodeRune_length c
      have he : encodeAll (c :: cs) = encodeRune c ++ encodeAll cs := by simp [encodeAll]
      have hdec := decode_encode c (encodeAll cs)
      rw [← he, ← hcs] at hdec
      rw [hdec]
      have hm : max 1 (encodeRune c).length = (encodeRune c).length := by omega
      simp only [hm]
      refine ih.drop ?_
      rw [hcs, he]
      exact utf8_take_length _ _ (by simpa [encodeAll] using utf8_of_encode [c]) (utf8_of_encode cs)

theorem Successive.order {M : Nat → Nat → Prop} (hM : ∀ i j, M i j → i ≤ j) {prev : Option Nat} {l : List (Nat × Nat)}
    (h : Successive M prev l) : (∀ e, prev = some e → ∀ x ∈ l, e ≤ x.1) ∧ l.Pairwise fun a c => a.2 ≤ c.1 := by
  induction h with
  | nil => exact ⟨fun _ _ x hx => (nomatch hx), List.Pairwise.nil⟩
  | cons prev i j l hm hp hl ht ih =>
    have hij := hM i j hm
    refine ⟨fun e he x hx => ?_, .cons (fun x hx => ih.1 j rfl x hx) ih.2⟩
    have := hp e he
    rcases List.mem_cons.1 hx with rfl | hx
    · simp only; omega
    · have := ih.1 j rfl x hx; omega

/-- The engine for real patterns meets what is asked of the engine. -/
theorem reExt_text : @TextExt reExt := by
  have key : ∀ p (re : Regex), reExt.compile p = .ok re → ∃ r, re = rxRegex r := by
    intro p re h
    change (match rxCompile p with | some r => Except.ok (rxRegex r) | none => Except.error (b! "error parsing regexp")) = Except.ok re at h
    split at h
    · rename_i r _; cases h; exact ⟨r, rfl⟩
    · cases h
  have cuts : ∀ r s i j, Utf8Text s → RxMatch r s i j → i ≤ j ∧ Between s ((i : Int) + 1) ∧ Between s ((j : Int) + 1) := by
    intro r s i j hs hm
    have hle := hm.2.2.le hm.2.1
    obtain ⟨n, rfl⟩ := hm.1
    obtain ⟨n', rfl⟩ := hm.2.2.boundary hm.1
    exact ⟨hle.1, cut_between.2 (cut_boundary hs n hm.2.1), cut_between.2 (cut_boundary hs n' hle.2)⟩
  refine @TextExt.mk reExt ?_ ?_ ?_ ?_
  · intro p re s i j hc hs hf
    obtain ⟨r, rfl⟩ := key p re hc
    exact cuts r s i j hs ((rxRegex_contract r).first.sound s i j hf)
  · intro p re s i j hc hs hf
    obtain ⟨r, rfl⟩ := key p re hc
    exact cuts r s i j hs (((rxRegex_contract r).all s).mem (i, j) hf)
  · intro p re s m i j hc hs hm hg
    obtain ⟨r, rfl⟩ := key p re hc
    exact nomatch hg
  · intro p re s hc hs
    obtain ⟨r, rfl⟩ := key p re hc
    exact (Successive.order (fun i j h => (h.2.2.le h.2.1).1) ((rxRegex_contract r).all s)).2

/-- A program that searches and replaces, marks and deletes, and inserts, in a text with an é and a €: it meets the conditions of
`C73_tidy_program`, and this is what it leaves. -/
example : letI := reExt
    let prog := [cmd b! "search-forward" [.str [0xC3, 0xA9]], cmd b! "replace-match" [.str [0xC3, 0xA8]],
      cmd b! "re-search-forward" [.str b! "b.d"], cmd b! "set-mark" [], cmd b! "end-of-line" [], cmd b! "delete-region" [],
      cmd b! "insert" [cmd b! "upcase" [.str [0xC3, 0xA0]]]]
    let text : Bytes := [0x61, 0xC3, 0xA9, 0x20, 0x62, 0xE2, 0x82, 0xAC, 0x64, 0x78]
    Utf8Text text ∧ Utf8StringsAll prog ∧ tidyCheck true true (postorders prog) = true ∧
      b! "beginning-of-line" ∉ postorders prog ∧
      (eval defaultEnv prog (newBuffer text)).1 = .ok (.str []) ∧
      (eval defaultEnv prog (newBuffer text)).2.content =
        [0x61, 0xC3, 0xA8, 0x20, 0x62, 0xE2, 0x82, 0xAC, 0x64, 0xC3, 0xA0] := by
  decide +kernel

/-- A program that fails in the middle: what it leaves is UTF-8 text too. -/
example : letI := reExt
    let prog := [cmd b! "insert" [.str [0xC3, 0xA9]], cmd b! "search-forward" [.str b! "zz"], cmd b! "insert" [.str b! "x"]]
    Utf8Text [0x61] ∧ Utf8StringsAll prog ∧ tidyCheck true true (postorders prog) = true ∧
      (match (eval defaultEnv prog (newBuffer [0x61])).1 with | .err _ => true | _ => false) = true ∧
      (eval defaultEnv prog (newBuffer [0x61])).2.content = [0xC3, 0xA9, 0x61] := by
  decide +kernel

end Texted
