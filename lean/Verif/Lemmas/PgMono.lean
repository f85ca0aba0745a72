import Verif.Lemmas.Pg
/-
More rounds and deeper calls never change a result (Model/PgRun).
-/
set_option linter.unusedSectionVars false
namespace Texted
variable [Ext]

/-- The second run ends as the first one did, if that one ended. -/
def PgOut.Follows (o o' : PgOut) : Prop := o ≠ .spin → o' = o

theorem PgOut.Follows.rfl' (o : PgOut) : o.Follows o := fun _ => rfl

theorem follows_andThen {o o' : PgOut} {k k' : PgSt → PgOut} (h : o.Follows o') (hk : ∀ st, (k st).Follows (k' st)) :
    (o.andThen k).Follows (o'.andThen k') := by
  intro hs
  cases o with
  | spin => exact absurd rfl hs
  | next st => rw [h (fun h => nomatch h)]; exact hk st hs
  | cont st => rw [h (fun h => nomatch h)]; rfl
  | ret vs w => rw [h (fun h => nomatch h)]; rfl
  | panic => rw [h (fun h => nomatch h)]; rfl
  | stuck => rw [h (fun h => nomatch h)]; rfl

theorem follows_round {o o' : PgOut} {k k' : PgSt → PgOut} (h : o.Follows o') (hk : ∀ st, (k st).Follows (k' st)) :
    (o.round k).Follows (o'.round k') := by
  intro hs
  cases o with
  | spin => exact absurd rfl hs
  | next st => rw [h (fun h => nomatch h)]; exact hk st hs
  | cont st => rw [h (fun h => nomatch h)]; exact hk st hs
  | ret vs w => rw [h (fun h => nomatch h)]; rfl
  | panic => rw [h (fun h => nomatch h)]; rfl
  | stuck => rw [h (fun h => nomatch h)]; rfl

theorem follows_results {o o' : PgOut} (st : PgSt) (xs : List PgVar) (h : o.Follows o') : (o.results st xs).Follows (o'.results st xs) := by
  intro hs
  cases o with
  | spin => exact absurd rfl hs
  | next st => rw [h (fun h => nomatch h)]
  | cont st => rw [h (fun h => nomatch h)]
  | ret vs w => rw [h (fun h => nomatch h)]
  | panic => rw [h (fun h => nomatch h)]
  | stuck => rw [h (fun h => nomatch h)]

theorem follows_run {α : Type} (r : GoR α) {k k' : α → PgOut} (hk : ∀ a, (k a).Follows (k' a)) : (r.runPg k).Follows (r.runPg k') := by
  cases r with
  | ok a => exact hk a
  | panic => exact .rfl' _
  | stuck => exact .rfl' _

theorem follows_if (v : PgV) {a a' b b' : PgOut} (ha : a.Follows a') (hb : b.Follows b') : (pgIf v a b).Follows (pgIf v a' b') := by
  unfold pgIf
  split
  · split
    · exact ha
    · exact hb
  · exact .rfl' _

theorem follows_loop {cond : PgSt → GoR PgV} {body body' post post' : PgSt → PgOut} (hb : ∀ st, (body st).Follows (body' st))
    (hp : ∀ st, (post st).Follows (post' st)) : ∀ {n n' : Nat}, n ≤ n' → ∀ st, (pgLoop cond body post n st).Follows (pgLoop cond body' post' n' st)
  | 0, _, _, st => fun h => absurd rfl h
  | n + 1, n', h, st => by
    obtain ⟨m, rfl⟩ : ∃ m, n' = m + 1 := ⟨n' - 1, by omega⟩
    rw [pgLoop, pgLoop]
    refine follows_run _ fun v => follows_if _ (follows_round (hb st) fun st => follows_andThen (hp st) ?_) (.rfl' _)
    exact follows_loop hb hp (by omega)

theorem follows_range {body body' : PgSt → PgOut} (hb : ∀ st, (body st).Follows (body' st)) (i x : PgVar) :
    ∀ (l : List PgV) (k : Nat) st, (pgRange body i x k l st).Follows (pgRange body' i x k l st)
  | [], _, _ => .rfl' _
  | v :: vs, k, st => follows_round (hb _) (follows_range hb i x vs (k + 1))

theorem follows_scan {body body' : PgSt → PgOut} (hb : ∀ st, (body st).Follows (body' st)) (x : PgVar) :
    ∀ {n n' : Nat}, n ≤ n' → ∀ st, (pgScan body x n st).Follows (pgScan body' x n' st)
  | 0, _, _, st => fun h => absurd rfl h
  | n + 1, n', h, st => by
    obtain ⟨m, rfl⟩ : ∃ m, n' = m + 1 := ⟨n' - 1, by omega⟩
    rw [pgScan, pgScan]
    split
    · split
      · exact .rfl' _
      · exact .rfl' _
      · exact follows_round (hb _) (follows_scan hb x (by omega))
    · exact .rfl' _

theorem follows_exec {n n' : Nat} (hn : n ≤ n') {call call' : PgFn → List PgV → PgW → PgOut} (hc : ∀ f a w, (call f a w).Follows (call' f a w)) :
    ∀ (s : PgS) (st : PgSt), (s.exec n call st).Follows (s.exec n' call' st)
  | .skip, _ => .rfl' _
  | .seq a b, st => follows_andThen (follows_exec hn hc a st) (follows_exec hn hc b)
  | .set _ _, _ => .rfl' _
  | .setMany _ _, _ => .rfl' _
  | .setAt _ _ _, _ => .rfl' _
  | .callFn xs f args, st => follows_run _ fun vs => follows_results st xs (hc f vs st.w)
  | .callValue _ _ _, _ => .rfl' _
  | .trace _ _, _ => .rfl' _
  | .if_ c a b, st => follows_run _ fun v => follows_if v (follows_exec hn hc a st) (follows_exec hn hc b st)
  | .while c post body, st => follows_loop (follows_exec hn hc body) (follows_exec hn hc post) hn st
  | .range i x e body, st => follows_run _ fun v => follows_run _ fun l => follows_range (follows_exec hn hc body) i x l 0 st
  | .forScan x body, st => follows_scan (follows_exec hn hc body) x hn st
  | .cont, _ => .rfl' _
  | .ret _, _ => .rfl' _

theorem follows_pgRun {n n' : Nat} (hn : n ≤ n') : ∀ {d d' : Nat}, d ≤ d' → ∀ f args w, (pgRun n d f args w).Follows (pgRun n' d' f args w)
  | 0, _, _, _, _, _ => fun h => absurd rfl h
  | d + 1, d', h, f, args, w => by
    obtain ⟨m, rfl⟩ : ∃ m, d' = m + 1 := ⟨d' - 1, by omega⟩
    rw [pgRun, pgRun]
    split
    · exact follows_exec hn (fun f a w => follows_pgRun hn (by omega) f a w) _ _
    · exact .rfl' _

end Texted
