import Verif.Lemmas.XmlMarkup
/- Lemmas for C77: one token. -/
namespace Texted
open Spec

/-- One token and how it is written. -/
inductive Token (x : XmlExt) : Bytes → List XTok → Prop
  | text {u t} : TextPiece u t → Token x u [.text t]
  | cdata {u t} : Cdata u t → Token x u [.text t]
  | aside {u} : Aside x u → Token x u [.other]
  | opening {n w l q tag} : Tag x n w tag → splitName n = some q → SameAttrs l w → Token x (60 :: (tag ++ [62])) [.start q l]
  | empty {n w l q tag} : Tag x n w tag → splitName n = some q → SameAttrs l w → Token x (60 :: (tag ++ [47, 62])) [.start q l, .stop q]
  | closing {n q u} : EndTag x n u → splitName n = some q → Token x u [.stop q]

theorem sameAttrs_inj {l l' : List (XName × Bytes)} {w : List (Bytes × Bytes)} (h : SameAttrs l w) (h' : SameAttrs l' w) : l = l' := by
  unfold SameAttrs at h h'
  have := h.symm.trans h'
  clear h h'
  induction l generalizing l' with
  | nil => cases l' with
    | nil => rfl
    | cons a l' => simp at this
  | cons a l ih => cases l' with
    | nil => simp at this
    | cons a' l' =>
      simp only [List.map_cons, List.cons.injEq, Prod.mk.injEq, Option.some.injEq] at this
      rw [ih this.2]
      have : a = a' := Prod.ext this.1.1 this.1.2
      rw [this]

theorem chars_head {s t : Bytes} (h : Chars none s t) : s.head? ≠ some 60 := by
  cases h with
  | nil => simp
  | byte _ h2 _ _ _ => simpa using h2
  | cr _ _ => simp
  | crlf _ => simp
  | ref href _ => obtain ⟨m, rfl, _⟩ := reference_shape href; simp

theorem tag_end {x : XmlExt} {n r : Bytes} {q : XName} {l : List (XName × Bytes)} {e : Bool} {s s' : Bytes}
    (hn : xmlNsName x s = some (q, r)) (ha : xmlAttrs x r.length r = some (l, e, s')) :
    ∃ n w tag, s = tag ++ tagEnd e ++ s' ∧ Tag x n w tag ∧ splitName n = some q ∧ SameAttrs l w := by
  obtain ⟨n, rfl, htn, hsn, hst⟩ := (xmlNsName_iff _ _ _ _).1 hn
  obtain ⟨u, w, rfl, h2, h3⟩ := xmlAttrs_sound _ _ _ _ _ _ ha
  refine ⟨n, w, n ++ u, by simp, ⟨u, rfl, htn, h2, ?_⟩, hsn, h3⟩
  intro b hb
  obtain ⟨c, t, hc, hcn⟩ := hst
  cases u with
  | nil => simp at hb
  | cons a u =>
    simp only [List.head?_cons, Option.some.injEq] at hb
    simp only [List.cons_append, List.cons.injEq] at hc
    rw [← hb, hc.1]; exact hcn

theorem rawToken_sound {x : XmlExt} {s r : Bytes} {ts : List XTok} (h : rawToken x s = some (ts, r)) :
    ∃ u, s = u ++ r ∧ Token x u ts ∧ (u.head? ≠ some 60 → r.head? = some 60) := by
  have h60 : ∀ {v : Bytes}, (60 :: v).head? ≠ some 60 → r.head? = some 60 := fun hh => absurd rfl hh
  rw [rawToken.eq_def] at h
  split at h
  · -- end tag
    next s =>
    split at h
    · cases h
    · next q r1 hx =>
      obtain ⟨n, rfl, htn, hsn, hst⟩ := (xmlNsName_iff _ _ _ _).1 hx
      obtain ⟨sp, hsp, hs, _⟩ := skipSpace_inv r1
      split at h
      · next r2 heq =>
        simp only [Option.some.injEq, Prod.mk.injEq] at h
        obtain ⟨rfl, rfl⟩ := h
        refine ⟨b! "</" ++ n ++ sp ++ b! ">", ?_, .closing ⟨sp, htn, hsp, rfl⟩ hsn, fun hh => absurd rfl hh⟩
        rw [hs, heq]; simp
      · cases h
  · -- instruction
    next s =>
    split at h
    · cases h
    · next n r1 hx =>
      obtain ⟨rfl, hn, hst⟩ := (xmlName_iff _ _ _ _).1 hx
      obtain ⟨sp, hsp, hs, hh⟩ := skipSpace_inv r1
      split at h
      · cases h
      · next d r2 heq =>
        obtain ⟨h1, h2⟩ := skipInst_iff.1 heq
        by_cases hd : n = b! "xml" ∧ x.declOk d = false
        · rw [if_pos hd] at h; cases h
        · rw [if_neg hd] at h
          simp only [Option.some.injEq, Prod.mk.injEq] at h
          obtain ⟨rfl, rfl⟩ := h
          refine ⟨b! "<?" ++ n ++ sp ++ d ++ b! "?>", ?_, .aside (.inr (.inl ⟨n, sp, d, rfl, hn, hsp, h2, ?_, ?_⟩)), fun hh => absurd rfl hh⟩
          · rw [hs, h1]; simp
          · intro b hb
            obtain ⟨d', rfl⟩ : ∃ d', d = b :: d' := by
              cases d with
              | nil => simp at hb
              | cons a d => simp only [List.head?_cons, Option.some.injEq] at hb; exact ⟨d, by rw [hb]⟩
            refine ⟨hh b (by rw [h1]; rfl), fun h0 => ?_⟩
            subst h0
            rw [List.nil_append] at hs
            obtain ⟨c, t, hc, hcn⟩ := hst
            rw [hs, h1] at hc
            simp only [List.cons_append, List.cons.injEq] at hc
            rw [hc.1]; exact hcn
          · intro hxml
            cases hdo : x.declOk d with
            | true => rfl
            | false => exact absurd ⟨hxml, hdo⟩ hd
  · -- comment
    next s =>
    split at h
    · cases h
    · next r1 heq =>
      obtain ⟨c, rfl, hc⟩ := skipComment_iff.1 heq
      simp only [Option.some.injEq, Prod.mk.injEq] at h
      obtain ⟨rfl, rfl⟩ := h
      exact ⟨b! "<!--" ++ c ++ b! "-->", by simp, .aside (.inl ⟨c, rfl, hc⟩), fun hh => absurd rfl hh⟩
  · cases h
  · -- CDATA
    next s =>
    by_cases hp : b! "CDATA[" <+: s
    · rw [if_pos hp] at h
      obtain ⟨s', rfl⟩ := hp
      have : List.drop 6 (b! "CDATA[" ++ s') = s' := rfl
      rw [this] at h
      split at h
      · cases h
      · next t r1 heq =>
        obtain ⟨c, rfl, h1, h2, h3⟩ := xmlText_cdata.1 heq
        simp only [Option.some.injEq, Prod.mk.injEq] at h
        obtain ⟨rfl, rfl⟩ := h
        exact ⟨b! "<![CDATA[" ++ c ++ b! "]]>", by simp, .cdata ⟨c, rfl, h1, h2, h3⟩, fun hh => absurd rfl hh⟩
    · rw [if_neg hp] at h; cases h
  · -- directive
    next b s _ h45 h91 =>
    split at h
    · cases h
    · next r1 heq =>
      obtain ⟨i, hi, rfl⟩ := skipDirective_iff.1 heq
      simp only [Option.some.injEq, Prod.mk.injEq] at h
      obtain ⟨rfl, rfl⟩ := h
      refine ⟨b! "<!" ++ b :: i ++ b! ">", by simp, .aside (.inr (.inr ⟨b, i, rfl, ?_, ?_, hi⟩)), fun hh => absurd rfl hh⟩
      · first | exact fun e => h45 _ (by rw [e]) | exact fun e => h45 e
      · first | exact fun e => h91 _ (by rw [e]) | exact fun e => h91 e
  · cases h
  · -- start tag
    next s _ _ _ _ _ _ _ =>
    split at h
    · cases h
    · next q r1 hx =>
      split at h
      · cases h
      · next l r2 ha =>
        simp only [Option.some.injEq, Prod.mk.injEq] at h
        obtain ⟨rfl, rfl⟩ := h
        obtain ⟨n, w, tag, rfl, h1, h2, h3⟩ := tag_end (n := []) hx ha
        exact ⟨60 :: (tag ++ [47, 62]), by simp [tagEnd], .empty h1 h2 h3, fun hh => absurd rfl hh⟩
      · next l r2 ha =>
        simp only [Option.some.injEq, Prod.mk.injEq] at h
        obtain ⟨rfl, rfl⟩ := h
        obtain ⟨n, w, tag, rfl, h1, h2, h3⟩ := tag_end (n := []) hx ha
        exact ⟨60 :: (tag ++ [62]), by simp [tagEnd], .opening h1 h2 h3, fun hh => absurd rfl hh⟩
  · -- text
    next s hs =>
    split at h
    · cases h
    · next t r1 heq =>
      obtain ⟨u, rfl, h1, h2, h3, h4⟩ := xmlText_piece.1 heq
      simp only [Option.some.injEq, Prod.mk.injEq] at h
      obtain ⟨rfl, rfl⟩ := h
      refine ⟨u, rfl, .text ⟨?_, h2, h3, h4⟩, fun _ => h1⟩
      rintro rfl
      cases r1 with
      | nil => simp at h1
      | cons a r1 =>
        simp only [List.head?_cons, Option.some.injEq] at h1
        subst h1
        exact hs r1 rfl

/-- A start tag is read by the last case for `<`. -/
theorem rawToken_start {x : XmlExt} {b : UInt8} (h1 : b ≠ 47) (h2 : b ≠ 63) (h3 : b ≠ 33) (s : Bytes) :
    rawToken x (60 :: b :: s) = match xmlNsName x (b :: s) with
      | none => none
      | some (n, r) => match xmlAttrs x r.length r with
        | none => none
        | some (l, true, r) => some ([.start n l, .stop n], r)
        | some (l, false, r) => some ([.start n l], r) := by
  rw [rawToken.eq_def]
  split
  · next heq => simp only [List.cons.injEq] at heq; exact absurd heq.2.1 h1
  · next heq => simp only [List.cons.injEq] at heq; exact absurd heq.2.1 h2
  · next heq => simp only [List.cons.injEq] at heq; exact absurd heq.2.1 h3
  · next heq => simp only [List.cons.injEq] at heq; exact absurd heq.2.1 h3
  · next heq => simp only [List.cons.injEq] at heq; exact absurd heq.2.1 h3
  · next heq => simp only [List.cons.injEq] at heq; exact absurd heq.2.1 h3
  · next heq => simp only [List.cons.injEq] at heq; exact absurd heq.2.1 h3
  · next heq => simp only [List.cons.injEq, true_and] at heq; rw [← heq]; rfl
  · next hne => exact absurd rfl (hne (b :: s))

theorem rawToken_text {x : XmlExt} {s : Bytes} (h : s.head? ≠ some 60) :
    rawToken x s = match xmlText none false s with
      | none => none
      | some (t, r) => some ([.text t], r) := by
  rw [rawToken.eq_def]
  split
  all_goals first
    | rfl
    | exact absurd rfl h

theorem tag_read {x : XmlExt} {n tag : Bytes} {w : List (Bytes × Bytes)} {q : XName} {l : List (XName × Bytes)} (ht : Tag x n w tag)
    (hq : splitName n = some q) (hl : SameAttrs l w) (e : Bool) (r : Bytes) :
    ∃ r', xmlNsName x (tag ++ tagEnd e ++ r) = some (q, r') ∧ xmlAttrs x r'.length r' = some (l, e, r) := by
  obtain ⟨u, rfl, htn, ha, hh⟩ := ht
  refine ⟨u ++ tagEnd e ++ r, (xmlNsName_iff _ _ _ _).2 ⟨n, by simp, htn, hq, ?_⟩, ?_⟩
  · cases u with
    | nil => cases e
             · exact ⟨62, r, rfl, by unfold NameByte; decide⟩
             · exact ⟨47, 62 :: r, rfl, by unfold NameByte; decide⟩
    | cons a u => exact ⟨a, u ++ tagEnd e ++ r, rfl, hh a rfl⟩
  · obtain ⟨l', hl', hf⟩ := xmlAttrs_complete x ha e r
    rw [sameAttrs_inj hl hl']
    apply hf
    cases e <;> simp [tagEnd] <;> omega

theorem tag_cons {x : XmlExt} {n tag : Bytes} {w : List (Bytes × Bytes)} (ht : Tag x n w tag) :
    ∃ b t, tag = b :: t ∧ b ≠ 47 ∧ b ≠ 63 ∧ b ≠ 33 := by
  obtain ⟨u, rfl, htn, _, _⟩ := ht
  obtain ⟨b, m, rfl, hb⟩ := tagName_head htn
  refine ⟨b, m ++ u, rfl, ?_, ?_, ?_⟩ <;> (rintro rfl; revert hb; unfold NameByte; decide)

theorem rawToken_complete {x : XmlExt} {u r : Bytes} {ts : List XTok} (h : Token x u ts) (hr : u.head? ≠ some 60 → r.head? = some 60) :
    rawToken x (u ++ r) = some (ts, r) := by
  cases h with
  | @text _ t h =>
    obtain ⟨h1, h2, h3, h4⟩ := h
    have hu := chars_head h2
    have : (u ++ r).head? ≠ some 60 := by
      cases u with
      | nil => exact absurd rfl h1
      | cons a u => simpa using hu
    rw [rawToken_text this, xmlText_piece.2 ⟨u, rfl, hr hu, h2, h3, h4⟩]
  | @cdata _ t h =>
    obtain ⟨c, rfl, h1, h2, h3⟩ := h
    have e : b! "<![CDATA[" ++ c ++ b! "]]>" ++ r = 60 :: 33 :: 91 :: (b! "CDATA[" ++ (c ++ b! "]]>" ++ r)) := by simp
    rw [e]
    show (if b! "CDATA[" <+: (b! "CDATA[" ++ (c ++ b! "]]>" ++ r)) then
      match xmlText none true (List.drop 6 (b! "CDATA[" ++ (c ++ b! "]]>" ++ r))) with
      | none => none
      | some (t, r) => some ([XTok.text t], r)
    else none) = _
    rw [if_pos ⟨_, rfl⟩]
    have : List.drop 6 (b! "CDATA[" ++ (c ++ b! "]]>" ++ r)) = c ++ b! "]]>" ++ r := rfl
    rw [this, xmlText_cdata.2 ⟨c, rfl, h1, h2, h3⟩]
  | aside h =>
    rcases h with ⟨c, rfl, hc⟩ | ⟨n, sp, c, rfl, hn, hsp, h1, h2, h3⟩ | ⟨b, c, rfl, h1, h2, h3⟩
    · have e : b! "<!--" ++ c ++ b! "-->" ++ r = 60 :: 33 :: 45 :: 45 :: (c ++ b! "-->" ++ r) := by simp
      rw [e]
      show (match skipComment 0 0 (c ++ b! "-->" ++ r) with
        | none => none
        | some r => some ([XTok.other], r)) = _
      rw [skipComment_iff.2 ⟨c, rfl, hc⟩]
    · have e : b! "<?" ++ n ++ sp ++ c ++ b! "?>" ++ r = 60 :: 63 :: (n ++ (sp ++ (c ++ b! "?>" ++ r))) := by simp
      have hst : Stops (sp ++ (c ++ b! "?>" ++ r)) := by
        cases sp with
        | nil => cases c with
          | nil => exact ⟨63, 62 :: r, rfl, by unfold NameByte; decide⟩
          | cons a c => exact ⟨a, c ++ b! "?>" ++ r, rfl, (h2 a rfl).2 rfl⟩
        | cons a sp =>
          refine ⟨a, sp ++ (c ++ b! "?>" ++ r), rfl, space_not_name ?_⟩
          intro b hb
          simp only [List.mem_singleton] at hb
          exact hsp b (by simp [hb])
      have hsk : skipSpace (sp ++ (c ++ b! "?>" ++ r)) = c ++ b! "?>" ++ r := by
        rw [skipSpace_append hsp]
        cases c with
        | nil => exact skipSpace_stop (by rw [blank_one]; decide) _
        | cons a c => exact skipSpace_stop (h2 a rfl).1 _
      rw [e]
      show (match xmlName x (n ++ (sp ++ (c ++ b! "?>" ++ r))) with
        | none => none
        | some (n, r) => match skipInst 0 [] (skipSpace r) with
          | none => none
          | some (d, r) => if n = b! "xml" ∧ x.declOk d = false then none else some ([XTok.other], r)) = _
      rw [(xmlName_iff _ _ _ _).2 ⟨rfl, hn, hst⟩]
      simp only [hsk, skipInst_iff.2 ⟨rfl, h1⟩]
      rw [if_neg]
      rintro ⟨hx, hd⟩
      rw [h3 hx] at hd
      cases hd
    · have e : b! "<!" ++ b :: c ++ b! ">" ++ r = 60 :: 33 :: b :: (c ++ 62 :: r) := by simp
      rw [e, rawToken.eq_def]
      split
      · next heq => simp at heq
      · next heq => simp at heq
      · next heq => simp only [List.cons.injEq] at heq; exact absurd heq.2.2.1 h1
      · next heq => simp only [List.cons.injEq] at heq; exact absurd heq.2.2.1 h1
      · next heq => simp only [List.cons.injEq] at heq; exact absurd heq.2.2.1 h2
      · next heq =>
        simp only [List.cons.injEq, true_and] at heq
        rw [← heq.2, skipDirective_iff.2 ⟨c, h3, rfl⟩]
      · next heq => simp at heq
      · next hne _ heq =>
        simp only [List.cons.injEq, true_and] at heq
        exact absurd heq.symm (hne _ _)
      · next hne => exact absurd rfl (hne _)
  | @opening n w l q tag h1 h2 h3 =>
    obtain ⟨b, t, rfl, n1, n2, n3⟩ := tag_cons h1
    obtain ⟨r', hx, ha⟩ := tag_read h1 h2 h3 false r
    have e : 60 :: (b :: t ++ [62]) ++ r = 60 :: b :: (t ++ 62 :: r) := by simp
    have e' : b :: t ++ tagEnd false ++ r = b :: (t ++ 62 :: r) := by simp [tagEnd]
    rw [e, rawToken_start n1 n2 n3, ← e', hx]
    simp only [ha]
  | @empty n w l q tag h1 h2 h3 =>
    obtain ⟨b, t, rfl, n1, n2, n3⟩ := tag_cons h1
    obtain ⟨r', hx, ha⟩ := tag_read h1 h2 h3 true r
    have e : 60 :: (b :: t ++ [47, 62]) ++ r = 60 :: b :: (t ++ 47 :: 62 :: r) := by simp
    have e' : b :: t ++ tagEnd true ++ r = b :: (t ++ 47 :: 62 :: r) := by simp [tagEnd]
    rw [e, rawToken_start n1 n2 n3, ← e', hx]
    simp only [ha]
  | @closing n q _ h1 h2 =>
    obtain ⟨sp, htn, hsp, rfl⟩ := h1
    have e : b! "</" ++ n ++ sp ++ b! ">" ++ r = 60 :: 47 :: (n ++ (sp ++ 62 :: r)) := by simp
    have hx : xmlNsName x (n ++ (sp ++ 62 :: r)) = some (q, sp ++ 62 :: r) :=
      (xmlNsName_iff _ _ _ _).2 ⟨n, rfl, htn, h2, stops_blank hsp (by unfold NameByte; decide) r⟩
    have hs : skipSpace (sp ++ 62 :: r) = 62 :: r := by
      rw [skipSpace_append hsp, skipSpace_stop (by rw [blank_one]; decide)]
    rw [e]
    show (match xmlNsName x (n ++ (sp ++ 62 :: r)) with
      | none => none
      | some (n, r) => match skipSpace r with
        | 62 :: r => some ([XTok.stop n], r)
        | _ => none) = _
    rw [hx]
    simp only [hs]

theorem token_nonempty {x : XmlExt} {u : Bytes} {ts : List XTok} (h : Token x u ts) : u ≠ [] := by
  cases h with
  | text h => exact h.1
  | cdata h => obtain ⟨c, rfl, _⟩ := h; simp
  | aside h => rcases h with ⟨c, rfl, hc⟩ | ⟨n, sp, c, rfl, _⟩ | ⟨b, c, rfl, _⟩ <;> simp
  | opening => simp
  | empty => simp
  | closing h _ => obtain ⟨sp, _, _, rfl⟩ := h; simp

end Texted
