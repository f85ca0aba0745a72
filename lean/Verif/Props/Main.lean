import Verif.Model.Main
import Verif.Spec.Main
import Verif.Props.CommandLine
import Verif.Props.EditCmd
/- C76: which subcommand runs. -/
namespace Texted
open Spec

theorem takesNext_iff (w : Bytes) (h : w ≠ b! "--") : takesNext w = true ↔ OpenOption w := by
  unfold takesNext OpenOption
  simp only [Bool.and_eq_true, Bool.not_eq_true', List.contains_eq_mem, decide_eq_false_iff_not, Bool.or_eq_true, beq_iff_eq,
    List.isPrefixOf_iff_prefix, ne_eq, h, not_false_eq_true, true_and]
  refine and_congr Iff.rfl (or_congr Iff.rfl ?_)
  constructor
  · rintro ⟨h1, h2⟩
    match w, h1, h2 with
    | [a, c], h1, _ => simp only [List.head?_cons, Option.some.injEq] at h1; subst h1; exact ⟨c, rfl⟩
  · rintro ⟨c, rfl⟩; exact ⟨rfl, rfl⟩

theorem kinds (w : Bytes) : w = b! "--" ∨ (w ≠ b! "--" ∧ takesNext w = true ∧ OpenOption w) ∨ (w ≠ b! "--" ∧ takesNext w = false ∧ NameWord w) ∨
    (w ≠ b! "--" ∧ takesNext w = false ∧ ¬ NameWord w ∧ ClosedWord w) := by
  by_cases h : w = b! "--"
  · exact .inl h
  · cases ht : takesNext w with
    | true => exact .inr (.inl ⟨h, rfl, (takesNext_iff w h).1 ht⟩)
    | false =>
      have hno : ¬ OpenOption w := fun ho => by rw [(takesNext_iff w h).2 ho] at ht; cases ht
      by_cases hn : NameWord w
      · exact .inr (.inr (.inl ⟨h, rfl, hn⟩))
      · refine .inr (.inr (.inr ⟨h, rfl, hn, ?_⟩))
        unfold ClosedWord
        by_cases h0 : w = []
        · exact .inl h0
        · have hh : w.head? = some 45 := Decidable.byContradiction fun hh => hn ⟨h0, hh⟩
          by_cases h1 : w = b! "-"
          · exact .inr (.inl h1)
          · refine .inr (.inr ⟨hh, ?_⟩)
            by_cases he : 61 ∈ w
            · exact .inl he
            · refine .inr ⟨fun hp => hno ⟨he, h, .inl hp⟩, ?_⟩
              match w, hh, h1, hno, he with
              | [a], hh, h1, _, _ =>
                simp only [List.head?_cons, Option.some.injEq] at hh
                subst hh; exact absurd rfl h1
              | [a, c], hh, _, hno, he =>
                simp only [List.head?_cons, Option.some.injEq] at hh
                subst hh; exact absurd ⟨he, h, .inr ⟨c, rfl⟩⟩ hno
              | _ :: _ :: _ :: _, _, _, _, _ => simp

theorem closed_facts {w : Bytes} (h : ClosedWord w) : w ≠ b! "--" ∧ takesNext w = false ∧ ¬ NameWord w := by
  have hne : w ≠ b! "--" := by
    rintro rfl
    rcases h with h | h | ⟨_, h | ⟨h, _⟩⟩
    · cases h
    · exact absurd h (by decide)
    · exact absurd h (by decide)
    · exact h (List.prefix_refl _)
  refine ⟨hne, ?_, ?_⟩
  · cases ht : takesNext w with
    | false => rfl
    | true =>
      obtain ⟨he, _, ho⟩ := (takesNext_iff w hne).1 ht
      rcases h with rfl | rfl | ⟨hh, h | ⟨h, hl⟩⟩
      · cases ht
      · cases ht
      · exact absurd h he
      · rcases ho with ho | ⟨c, rfl⟩
        · exact absurd ho h
        · simp at hl
  · rintro ⟨h1, h2⟩
    rcases h with rfl | rfl | ⟨hh, _⟩
    · exact h1 rfl
    · exact h2 rfl
    · exact h2 hh

theorem name_facts {w : Bytes} (h : NameWord w) : w ≠ b! "--" ∧ takesNext w = false := by
  have hne : w ≠ b! "--" := by rintro rfl; exact h.2 rfl
  refine ⟨hne, ?_⟩
  cases ht : takesNext w with
  | false => rfl
  | true =>
    obtain ⟨_, _, ho⟩ := (takesNext_iff w hne).1 ht
    rcases ho with ⟨t, rfl⟩ | ⟨c, rfl⟩
    · exact absurd rfl h.2
    · exact absurd rfl h.2

theorem open_facts {w : Bytes} (h : OpenOption w) : w ≠ b! "--" ∧ takesNext w = true := ⟨h.2.1, (takesNext_iff w h.2.1).2 h⟩

theorem cw_dash (r : List Bytes) : commandWords (b! "--" :: r) = [] := by
  rw [commandWords.eq_def]; dsimp only; rw [if_pos rfl]

theorem cw_name {w : Bytes} (h : NameWord w) (r : List Bytes) : commandWords (w :: r) = w :: commandWords r := by
  obtain ⟨h1, h2⟩ := name_facts h
  rw [commandWords.eq_def]; dsimp only
  rw [if_neg h1, h2, if_neg (by simp), if_pos (show w ≠ [] ∧ w.head? ≠ some 45 from h)]

theorem cw_closed {w : Bytes} (h1 : w ≠ b! "--") (h2 : takesNext w = false) (h3 : ¬ NameWord w) (r : List Bytes) : commandWords (w :: r) = commandWords r := by
  rw [commandWords.eq_def]; dsimp only
  rw [if_neg h1, h2, if_neg (by simp), if_neg (show ¬ (w ≠ [] ∧ w.head? ≠ some 45) from h3)]

theorem cw_open0 {w : Bytes} (h : OpenOption w) : commandWords [w] = [] := by
  obtain ⟨h1, h2⟩ := open_facts h
  rw [commandWords.eq_def]; dsimp only
  rw [if_neg h1, h2, if_pos rfl]

theorem cw_open1 {w : Bytes} (h : OpenOption w) (v : Bytes) (r : List Bytes) : commandWords (w :: v :: r) = if r = [] then [] else commandWords r := by
  obtain ⟨h1, h2⟩ := open_facts h
  rw [commandWords.eq_def]; dsimp only
  rw [if_neg h1, h2, if_pos rfl]
  cases r <;> rfl

theorem wf_name {w : Bytes} (h : NameWord w) (r : List Bytes) : withoutFirst w (w :: r) = r := by
  obtain ⟨h1, h2⟩ := name_facts h
  rw [withoutFirst.eq_def]; dsimp only
  rw [if_neg h1, h2, if_neg (by simp), if_pos h.2, if_pos rfl]

theorem wf_closed {w x : Bytes} (h1 : w ≠ b! "--") (h2 : takesNext w = false) (h3 : w ≠ x) (r : List Bytes) :
    withoutFirst x (w :: r) = w :: withoutFirst x r := by
  rw [withoutFirst.eq_def]; dsimp only
  rw [if_neg h1, h2, if_neg (by simp), if_neg h3, ite_self]

theorem wf_open {w : Bytes} (h : OpenOption w) (x v : Bytes) (r : List Bytes) : withoutFirst x (w :: v :: r) = w :: v :: withoutFirst x r := by
  obtain ⟨h1, h2⟩ := open_facts h
  rw [withoutFirst.eq_def]; dsimp only
  rw [if_neg h1, h2, if_pos rfl]

theorem commandWords_leading {pre : List Bytes} (h : Leading pre) (n : Bytes) (hn : NameWord n) (post : List Bytes) :
    commandWords (pre ++ n :: post) = n :: commandWords post := by
  induction h with
  | nil => exact cw_name hn post
  | @closed w ws hc _ ih =>
    obtain ⟨h1, h2, h3⟩ := closed_facts hc
    rw [List.cons_append, cw_closed h1 h2 h3, ih]
  | @pair w v ws ho _ ih =>
    rw [List.cons_append, List.cons_append, cw_open1 ho, if_neg (by simp), ih]

theorem withoutFirst_leading {pre : List Bytes} (h : Leading pre) (n : Bytes) (hn : NameWord n) (post : List Bytes) :
    withoutFirst n (pre ++ n :: post) = pre ++ post := by
  induction h with
  | nil => exact wf_name hn post
  | @closed w ws hc _ ih =>
    obtain ⟨h1, h2, h3⟩ := closed_facts hc
    have hne : w ≠ n := by rintro rfl; exact h3 hn
    rw [List.cons_append, wf_closed h1 h2 hne, ih]; rfl
  | @pair w v ws ho _ ih =>
    rw [List.cons_append, List.cons_append, wf_open ho, ih]; rfl

/-- Every line of words is one of three. -/
theorem three_ways : ∀ words : List Bytes, (∃ pre n post, Leading pre ∧ NameWord n ∧ words = pre ++ n :: post) ∨
    (commandWords words = [] ∧ ∃ pre, Leading pre ∧ (words = pre ∨ (∃ rest, words = pre ++ b! "--" :: rest) ∨ ∃ w, OpenOption w ∧ words = pre ++ [w]))
  | [] => .inr ⟨rfl, [], .nil, .inl rfl⟩
  | w :: rest => by
    rcases kinds w with rfl | ⟨h1, h2, ho⟩ | ⟨h1, h2, hn⟩ | ⟨h1, h2, hn, hc⟩
    · exact .inr ⟨cw_dash rest, [], .nil, .inr (.inl ⟨rest, rfl⟩)⟩
    · match rest with
      | [] => exact .inr ⟨cw_open0 ho, [], .nil, .inr (.inr ⟨w, ho, rfl⟩)⟩
      | [v] => exact .inr ⟨by rw [cw_open1 ho, if_pos rfl], [w, v], .pair ho .nil, .inl rfl⟩
      | v :: x :: more =>
        rcases three_ways (x :: more) with ⟨pre, n, post, hp, hn, he⟩ | ⟨hc, pre, hp, h⟩
        · exact .inl ⟨w :: v :: pre, n, post, .pair ho hp, hn, by rw [he]; rfl⟩
        · refine .inr ⟨by rw [cw_open1 ho, hc, ite_self], w :: v :: pre, .pair ho hp, ?_⟩
          rcases h with h | ⟨r, h⟩ | ⟨u, hu, h⟩
          · exact .inl (by rw [h])
          · exact .inr (.inl ⟨r, by rw [h]; rfl⟩)
          · exact .inr (.inr ⟨u, hu, by rw [h]; rfl⟩)
    · exact .inl ⟨[], w, rest, .nil, hn, rfl⟩
    · rcases three_ways rest with ⟨pre, n, post, hp, hn', he⟩ | ⟨hc', pre, hp, h⟩
      · exact .inl ⟨w :: pre, n, post, .closed hc hp, hn', by rw [he]; rfl⟩
      · refine .inr ⟨?_, w :: pre, .closed hc hp, ?_⟩
        · rw [cw_closed h1 h2 hn, hc']
        · rcases h with h | ⟨r, h⟩ | ⟨u, hu, h⟩
          · exact .inl (by rw [h])
          · exact .inr (.inl ⟨r, by rw [h]; rfl⟩)
          · exact .inr (.inr ⟨u, hu, by rw [h]; rfl⟩)
  termination_by words => words.length

theorem sub_names {n : Bytes} (h : n ∈ subcommands) : NameWord n := by
  revert n; unfold NameWord; decide

theorem pick_leading {pre : List Bytes} (h : Leading pre) (n : Bytes) (hn : NameWord n) (post : List Bytes) :
    pick (pre ++ n :: post) = if n ∈ subcommands then .sub n (pre ++ post) else .unknown n := by
  unfold pick
  rw [commandWords_leading h n hn post]
  simp only [withoutFirst_leading h n hn post]

/-- **C76**: exactly which subcommand runs with which words: the first word that is neither an option nor the value of one, if it is a
name of a subcommand; the words passed on are the others, in order. -/
theorem C76_exact (words : List Bytes) (name : Bytes) (ws : List Bytes) : pick words = .sub name ws ↔
    name ∈ subcommands ∧ ∃ pre post, Leading pre ∧ words = pre ++ name :: post ∧ ws = pre ++ post := by
  constructor
  · intro h
    rcases three_ways words with ⟨pre, n, post, hp, hn, rfl⟩ | ⟨hc, _⟩
    · rw [pick_leading hp n hn] at h
      split at h
      · rename_i hm
        obtain ⟨rfl, rfl⟩ := Picked.sub.inj h
        exact ⟨hm, pre, post, hp, rfl, rfl⟩
      · cases h
    · unfold pick at h; rw [hc] at h; cases h
  · rintro ⟨hm, pre, post, hp, rfl, rfl⟩
    rw [pick_leading hp name (sub_names hm), if_pos hm]

/-- **C76**: exactly which words are refused as an unknown command. -/
theorem C76_unknown_exact (words : List Bytes) (w : Bytes) : pick words = .unknown w ↔
    NameWord w ∧ w ∉ subcommands ∧ ∃ pre post, Leading pre ∧ words = pre ++ w :: post := by
  constructor
  · intro h
    rcases three_ways words with ⟨pre, n, post, hp, hn, rfl⟩ | ⟨hc, _⟩
    · rw [pick_leading hp n hn] at h
      split at h
      · cases h
      · rename_i hm
        have := Picked.unknown.inj h
        subst this
        exact ⟨hn, hm, pre, post, hp, rfl⟩
    · unfold pick at h; rw [hc] at h; cases h
  · rintro ⟨hn, hm, pre, post, hp, rfl⟩
    rw [pick_leading hp w hn, if_neg hm]

/-- **C76**: exactly when no subcommand is meant: options only, or `--` or an option without its value before any name. -/
theorem C76_root_exact (words ws : List Bytes) : pick words = .root ws ↔
    ws = words ∧ ∃ pre, Leading pre ∧ (words = pre ∨ (∃ rest, words = pre ++ b! "--" :: rest) ∨ ∃ w, OpenOption w ∧ words = pre ++ [w]) := by
  have no_name : ∀ {pre : List Bytes}, Leading pre → commandWords pre = [] ∧ (∀ rest, commandWords (pre ++ b! "--" :: rest) = []) ∧
      ∀ w, OpenOption w → commandWords (pre ++ [w]) = [] := by
    intro pre hp
    induction hp with
    | nil =>
      exact ⟨rfl, fun rest => cw_dash rest, fun w hw => cw_open0 hw⟩
    | @closed w ws hc _ ih =>
      obtain ⟨h1, h2, h3⟩ := closed_facts hc
      have step : ∀ r, commandWords (w :: r) = commandWords r := cw_closed h1 h2 h3
      exact ⟨by rw [step, ih.1], fun rest => by rw [List.cons_append, step, ih.2.1], fun u hu => by rw [List.cons_append, step, ih.2.2 u hu]⟩
    | @pair w v ws ho _ ih =>
      have step : ∀ r, commandWords (w :: v :: r) = if r = [] then [] else commandWords r := cw_open1 ho v
      refine ⟨by rw [step, ih.1, ite_self], fun rest => ?_, fun u hu => ?_⟩
      · rw [List.cons_append, List.cons_append, step, ih.2.1, ite_self]
      · rw [List.cons_append, List.cons_append, step, ih.2.2 u hu, ite_self]
  constructor
  · intro h
    rcases three_ways words with ⟨pre, n, post, hp, hn, rfl⟩ | ⟨hc, h'⟩
    · rw [pick_leading hp n hn] at h
      split at h <;> cases h
    · unfold pick at h; rw [hc] at h
      exact ⟨(Picked.root.inj h).symm, h'⟩
  · rintro ⟨rfl, pre, hp, h⟩
    have : commandWords ws = [] := by
      rcases h with rfl | ⟨rest, rfl⟩ | ⟨w, hw, rfl⟩
      · exact (no_name hp).1
      · exact (no_name hp).2.1 rest
      · exact (no_name hp).2.2 w hw
    unfold pick; rw [this]

section
variable [Ext] (helps : Bytes → Bytes) (others : Bytes → List Bytes → Proc Nat)

/-- **C76**: `texted edit WORDS...` does with the files and the terminal what the `edit` command does with these words, whatever they
are; its exit status is 0 if the command gives no error, otherwise 1. -/
theorem C76_edit (ws : List Bytes) (w w' : World) :
    (∀ s, Ends (textedMain helps others (b! "edit" :: ws)) w s w' ↔
      ∃ r, Ends (editMain (helps (b! "edit")) ws) w r w' ∧ ((r = none ∧ s = 0) ∨ (r ≠ none ∧ s = 1))) ∧
    (Sees (textedMain helps others (b! "edit" :: ws)) w w' ↔ Sees (editMain (helps (b! "edit")) ws) w w') := by
  have hp : pick (b! "edit" :: ws) = .sub (b! "edit") ws := (C76_exact _ _ _).2 ⟨by decide, [], ws, .nil, rfl, rfl⟩
  have : textedMain helps others (b! "edit" :: ws) = (editMain (helps (b! "edit")) ws).bind fun e => .ret (exitStatus e) := by
    simp only [textedMain, hp, if_true]
  rw [this]
  constructor
  · intro s
    rw [ends_bind]
    constructor
    · rintro ⟨r, w1, h1, h2⟩
      obtain ⟨rfl, rfl⟩ := ends_ret.1 h2
      refine ⟨r, h1, ?_⟩
      cases r with
      | none => exact .inl ⟨rfl, rfl⟩
      | some e => exact .inr ⟨by simp, rfl⟩
    · rintro ⟨r, h1, h2⟩
      refine ⟨r, w', h1, ends_ret.2 ⟨?_, rfl⟩⟩
      rcases h2 with ⟨rfl, rfl⟩ | ⟨h, rfl⟩
      · rfl
      · cases r with
        | none => exact absurd rfl h
        | some e => rfl
  · rw [sees_bind]
    constructor
    · rintro (h | ⟨r, w1, h1, h2⟩)
      · exact h
      · rw [sees_ret] at h2; subst h2; exact ends_sees h1
    · exact fun h => .inl h

/-- **C76**: the other subcommands are passed all the words behind their name. -/
theorem C76_others (name : Bytes) (h : name ∈ [b! "parse", b! "test", b! "doc", b! "mcp"]) (ws : List Bytes) :
    textedMain helps others (name :: ws) = others name ws := by
  have hs : name ∈ subcommands ∧ name ≠ b! "edit" := by revert name; decide
  have hp : pick (name :: ws) = .sub name ws := (C76_exact _ _ _).2 ⟨hs.1, [], ws, .nil, rfl, rfl⟩
  simp only [textedMain, hp, if_neg hs.2]

/-- **C76**: options may stand before the name of the command if each is one word with `=` or several letters, or is followed by a value. -/
theorem C76_options_before (pre post : List Bytes) (h : Leading pre) (name : Bytes) (hn : name ∈ subcommands) :
    textedMain helps others (pre ++ name :: post) = textedMain helps others (name :: (pre ++ post)) := by
  have h1 : pick (pre ++ name :: post) = .sub name (pre ++ post) := (C76_exact _ _ _).2 ⟨hn, pre, post, h, rfl, rfl⟩
  have h2 : pick (name :: (pre ++ post)) = .sub name (pre ++ post) := (C76_exact _ _ _).2 ⟨hn, [], pre ++ post, .nil, rfl, rfl⟩
  unfold textedMain; rw [h1, h2]

/-- **C76**: a word that is no subcommand is refused before anything is read, written or printed on standard output: exit status 1. -/
theorem C76_unknown_refused (pre post : List Bytes) (h : Leading pre) (w : Bytes) (hw : NameWord w) (hn : w ∉ subcommands) :
    textedMain helps others (pre ++ w :: post) = .ret 1 := by
  have h1 : pick (pre ++ w :: post) = .unknown w := (C76_unknown_exact _ _).2 ⟨hw, hn, pre, post, h, rfl⟩
  unfold textedMain; rw [h1]

/-- **C76**: files change only if `edit` or `mcp` is named before any other command (the other subcommands are assumed not to write; see
C67, C64). -/
theorem C76_only_edit_writes (ho : ∀ n ws, n ≠ b! "mcp" → WritesOnly (fun _ => False) (others n ws)) (words : List Bytes)
    (w w' : World) (hs : Sees (textedMain helps others words) w w') (hd : w'.files ≠ w.files) :
    ∃ pre name post, Leading pre ∧ words = pre ++ name :: post ∧ (name = b! "edit" ∨ name = b! "mcp") := by
  have done : WritesOnly (fun _ => False) (textedMain helps others words) → False := fun h => hd (WritesNothing.sees h hs)
  cases hp : pick words with
  | unknown u => exact (done (by simp only [textedMain, hp, WritesOnly])).elim
  | root ws =>
    refine (done ?_).elim
    simp only [textedMain, hp]
    split <;> simp [WritesOnly]
  | sub name ws =>
    obtain ⟨_, pre, post, h1, h2, _⟩ := (C76_exact _ _ _).1 hp
    refine ⟨pre, name, post, h1, h2, ?_⟩
    by_cases he : name = b! "edit"
    · exact .inl he
    · by_cases hm : name = b! "mcp"
      · exact .inr hm
      · refine (done ?_).elim
        simp only [textedMain, hp, if_neg he]
        exact ho _ _ hm

/-- **C76**, naive claim refuted: options that need no value cannot stand before the name (pflag would allow `edit -n -s S f`): cobra takes
the name for the option's value. The run is refused, nothing is touched. -/
theorem C76_false_switch_before (sw : Bytes) (h : sw ∈ [b! "-i", b! "-n", b! "-v", b! "-q", b! "--in-place", b! "--dry-run", b! "--verbose", b! "--quiet",
      b! "--shell", b! "--sexp", b! "--json"])
    (script file : Bytes) (hf : NameWord file) (hn : file ∉ subcommands) (post : List Bytes) :
    textedMain helps others ([sw, b! "edit", b! "-s", script, file] ++ post) = .ret 1 ∧
    textedMain helps others ([b! "edit", sw, b! "-s", script, file] ++ post) =
      (editMain (helps (b! "edit")) ([sw, b! "-s", script, file] ++ post)).bind fun e => .ret (exitStatus e) := by
  have ho : OpenOption sw := by
    rw [← takesNext_iff sw (by revert sw; decide)]
    revert sw; decide
  refine ⟨C76_unknown_refused helps others [sw, b! "edit", b! "-s", script] post (.pair ho (.pair ?_ .nil)) file hf hn, ?_⟩
  · rw [← takesNext_iff _ (by decide)]; decide
  · have hp : pick ([b! "edit", sw, b! "-s", script, file] ++ post) = .sub (b! "edit") ([sw, b! "-s", script, file] ++ post) :=
      (C76_exact _ _ _).2 ⟨by decide, [], _, .nil, rfl, rfl⟩
    simp only [textedMain, hp, if_true]

/-- **C76**: without any word, or with `--` first, the help is printed and the exit status is 0 – also for `texted -- edit ...`. -/
theorem C76_help (rest : List Bytes) :
    textedMain helps others [] = .act (.print (helps (b! "texted"))) (fun _ => .ret 0) ∧
    textedMain helps others (b! "--" :: rest) = .act (.print (helps (b! "texted"))) (fun _ => .ret 0) := by
  refine ⟨rfl, ?_⟩
  have hp : pick (b! "--" :: rest) = .root (b! "--" :: rest) := (C76_root_exact _ _).2 ⟨rfl, [], .nil, .inr (.inl ⟨rest, rfl⟩)⟩
  have hw : parseWords [helpFlag] (b! "--" :: rest) = .ok ([], rest) := by
    unfold parseWords
    rw [if_neg (by decide), if_pos rfl]
  simp only [textedMain, hp, hw]

end

/-! ### The cases are met -/

-- `texted -s SCRIPT --format=sexp edit a.txt` runs edit with the option words first
example (script : Bytes) : pick [b! "-s", script, b! "--format=sexp", b! "edit", b! "a.txt"] =
    .sub (b! "edit") [b! "-s", script, b! "--format=sexp", b! "a.txt"] := rfl

example (script : Bytes) : Leading [b! "-s", script, b! "--format=sexp"] :=
  .pair ((takesNext_iff _ (by decide)).1 (by decide)) (.closed (.inr (.inr ⟨rfl, .inl (by decide)⟩)) .nil)

example : NameWord (b! "edti") ∧ b! "edti" ∉ subcommands := ⟨by unfold NameWord; decide, by decide⟩

example : pick [b! "--help"] = .root [b! "--help"] := rfl

end Texted
