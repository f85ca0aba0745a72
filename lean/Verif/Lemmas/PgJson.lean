import Verif.Lemmas.PgValues
/-
`ParseJSONString`, `ValidateJSONFormat` and the functions they call (/repo/edlisp/parser/json.go) as they are written in Go.
-/
set_option linter.unusedSectionVars false
namespace Texted
variable [Ext] {n d : Nat} {w : PgW}

theorem Json.parts_pos (v : Json) : 0 < v.parts := by cases v <;> simp [Json.parts]

theorem Json.partsAll_length : ∀ l : List Json, l.length ≤ Json.partsAll l
  | [] => Nat.le_refl _
  | v :: vs => by
    have := Json.partsAll_length vs
    have := v.parts_pos
    rw [List.length_cons, Json.partsAll]; omega

/-- The results of a function that returns a value and an error. -/
def pgTwo (w : PgW) : Except Bytes Value → PgOut
  | .ok v => .ret [.val v, .nil] w
  | .error e => .ret [.nil, .err e] w

theorem pgindex_zero (j : Json) (r : List Json) : (PgV.jsons (j :: r)).index (.int 0) = .ok (.json j) := rfl

theorem pgslice_one (j : Json) (r : List Json) : (PgV.jsons (j :: r)).sliceFrom (.int 1) = .ok (.jsons r) := by
  show (if (0 : Int) ≤ 1 ∧ (1 : Int) ≤ ((j :: r).length : Int) then _ else _) = _
  rw [if_pos ⟨by omega, by rw [List.length_cons]; omega⟩]
  rfl

/-- The body of the loop of `convertJSONArray` (/repo/edlisp/parser/json.go:106-112). -/
def itemBody : PgS := match pgConvertJSONArray with
  | .seq _ (.seq _ (.seq _ (.seq _ (.seq _ (.seq (.range _ _ _ b) _))))) => b
  | _ => .skip

mutual
theorem item_pg : ∀ (j : Json) (n d : Nat) (w : PgW), j.parts < 4611686018427387904 → 2 * j.parts < d → pgRun n d .convertJSONItem [.json j] w = pgTwo w (convertItem j)
  | .null, n, d, w, hs, hd => by
    obtain ⟨d, rfl⟩ : ∃ e, d = e + 1 := ⟨d - 1, by omega⟩
    rw [pgRun_succ _ _ _ _ _ _ rfl]
    simp only [PgFn.body, pgConvertJSONItem]
    pg [PgT.isJson, PgT.holds, List.append_nil]; rfl
  | .bool _, n, d, w, hs, hd => by
    obtain ⟨d, rfl⟩ : ∃ e, d = e + 1 := ⟨d - 1, by omega⟩
    rw [pgRun_succ _ _ _ _ _ _ rfl]
    simp only [PgFn.body, pgConvertJSONItem]
    pg [PgT.isJson, PgT.holds, List.append_nil]; rfl
  | .num _, n, d, w, hs, hd => by
    obtain ⟨d, rfl⟩ : ∃ e, d = e + 1 := ⟨d - 1, by omega⟩
    rw [pgRun_succ _ _ _ _ _ _ rfl]
    simp only [PgFn.body, pgConvertJSONItem]
    pg [PgT.isJson, PgT.holds, PgT.assert, PgV.unpack]; rfl
  | .str _, n, d, w, hs, hd => by
    obtain ⟨d, rfl⟩ : ∃ e, d = e + 1 := ⟨d - 1, by omega⟩
    rw [pgRun_succ _ _ _ _ _ _ rfl]
    simp only [PgFn.body, pgConvertJSONItem]
    pg [PgT.isJson, PgT.holds, PgT.assert, PgV.unpack]; rfl
  | .obj _, n, d, w, hs, hd => by
    obtain ⟨d, rfl⟩ : ∃ e, d = e + 1 := ⟨d - 1, by omega⟩
    rw [pgRun_succ _ _ _ _ _ _ rfl]
    simp only [PgFn.body, pgConvertJSONItem]
    pg [PgT.isJson, PgT.holds, List.append_nil]
    rw [convertItem, pgTwo]
    simp only [List.append_assoc]
  | .arr l, n, d, w, hs, hd => by
    rw [Json.parts] at hd hs
    obtain ⟨d, rfl⟩ : ∃ e, d = e + 1 := ⟨d - 1, by omega⟩
    have ha := array_pg l n d w (by omega) (by omega)
    rw [pgRun_succ _ _ _ _ _ _ rfl]
    simp only [PgFn.body, pgConvertJSONItem]
    pg [PgT.isJson, PgT.holds, PgT.assert, PgV.unpack, ha]
    rw [convertItem]
    cases convertArray l with
    | ok v => rw [pgTwo]; pg []
    | error e => rw [pgTwo]; pg []
theorem array_pg : ∀ (l : List Json) (n d : Nat) (w : PgW), Json.partsAll l < 4611686018427387904 → 2 * Json.partsAll l < d →
    pgRun n d .convertJSONArray [.jsons l] w = pgTwo w (convertArray l)
  | [], n, d, w, hs, hd => by
    obtain ⟨d, rfl⟩ : ∃ e, d = e + 1 := ⟨d - 1, by omega⟩
    rw [pgRun_succ _ _ _ _ _ _ rfl]
    simp only [PgFn.body, pgConvertJSONArray]
    pg [List.length_nil, Int.natCast_zero]; rfl
  | j :: r, n, d, w, hs, hd => by
    obtain ⟨d, rfl⟩ : ∃ e, d = e + 1 := ⟨d - 1, by omega⟩
    rw [pgRun_succ _ _ _ _ _ _ rfl]
    simp only [PgFn.body, pgConvertJSONArray]
    have hz : decide (((j :: r).length : Int) = 0) = false := by simp; omega
    cases j with
    | str s =>
      rw [Json.partsAll, Json.parts] at hs hd
      pg [hz, pgindex_zero, PgT.assert2, PgT.holds, PgT.isJson, PgV.unpack, pgslice_one, pgexec_range, show (PgV.jsons r).items = .ok (r.map .json) from rfl, List.nil_append]
      have hg := items_pg r n d w 0 ((((((({ vars := fun _ => .nil, w := w } : PgSt).set .arr (.jsons (.str s :: r))).set .elements (.vals [])).set .firstElement (.str s)).set .ok (.bool true))).set .elements (.vals [.sym s])) [.sym s]
        (by omega) (by have := Json.partsAll_length r; omega) (by omega) (by pg []) rfl
      rw [convertArray]
      rw [Nat.zero_add] at hg
      cases hm : convertItems 1 r with
      | ok vs =>
        obtain ⟨st', e₁, e₂, e₃⟩ := hg.1 vs hm
        refine (congrArg (fun o : PgOut => o.andThen _) e₁).trans ?_
        pg [e₂, e₃]
        rfl
      | error e =>
        refine (congrArg (fun o : PgOut => o.andThen _) (hg.2 e hm)).trans ?_
        rfl
    | null => pg [hz, pgindex_zero, PgT.assert2, PgT.holds, PgT.isJson, PgV.unpack, Bool.false_eq_true, List.append_nil]; rfl
    | bool _ => pg [hz, pgindex_zero, PgT.assert2, PgT.holds, PgT.isJson, PgV.unpack, Bool.false_eq_true, List.append_nil]; rfl
    | num _ => pg [hz, pgindex_zero, PgT.assert2, PgT.holds, PgT.isJson, PgV.unpack, Bool.false_eq_true, List.append_nil]; rfl
    | arr _ => pg [hz, pgindex_zero, PgT.assert2, PgT.holds, PgT.isJson, PgV.unpack, Bool.false_eq_true, List.append_nil]; rfl
    | obj _ => pg [hz, pgindex_zero, PgT.assert2, PgT.holds, PgT.isJson, PgV.unpack, Bool.false_eq_true, List.append_nil]; rfl
theorem items_pg : ∀ (l : List Json) (n d : Nat) (w : PgW) (k : Nat) (st : PgSt) (acc : List Value), Json.partsAll l < 4611686018427387904 → k + l.length < 4611686018427387904 →
    2 * Json.partsAll l < d → st.vars .elements = .vals acc → st.w = w →
    (∀ vs, convertItems (k + 1) l = .ok vs → ∃ st', pgRange (fun st => itemBody.exec n (pgRun n d) st) .i .item k (l.map .json) st = .next st' ∧ st'.vars .elements = .vals (acc ++ vs) ∧ st'.w = w) ∧
    (∀ e, convertItems (k + 1) l = .error e → pgRange (fun st => itemBody.exec n (pgRun n d) st) .i .item k (l.map .json) st = .ret [.nil, .err e] w)
  | [], n, d, w, k, st, acc, _, _, _, h, hw => by
    refine ⟨fun vs hv => ⟨st, rfl, ?_, hw⟩, fun e he => nomatch he⟩
    rw [h, ← Except.ok.inj hv, List.append_nil]
  | j :: js, n, d, w, k, st, acc, hs, hk, hd, h, hw => by
    rw [Json.partsAll] at hs hd
    rw [List.length_cons] at hk
    have hpos := j.parts_pos
    have hx := item_pg j n d w (by omega) (by omega)
    have hadd : wrap64 ((k : Int) + 1) = ((k + 1 : Nat) : Int) := by rw [wrap64_eq (by omega) (by omega)]; omega
    rw [convertItems.eq_def]
    dsimp only
    cases hm : convertItem j with
    | error e =>
      rw [hm, pgTwo] at hx
      refine ⟨fun vs hv => (nomatch hv), fun e' he => ?_⟩
      rw [← Except.error.inj he]
      have hb : itemBody.exec n (pgRun n d) ((st.set .i (.int k)).set .item (.json j)) =
          .ret [.nil, .err (b! "error converting array element " ++ natDec (k + 1) ++ b! ": " ++ e)] w := by
        simp only [itemBody, pgConvertJSONArray]
        pg [h, hw, hx, hadd, natDec_int, List.append_nil]
        simp only [List.append_assoc]
      rw [List.map_cons, pgRange, hb]; rfl
    | ok v =>
      rw [hm, pgTwo] at hx
      have hb : ∃ st', itemBody.exec n (pgRun n d) ((st.set .i (.int k)).set .item (.json j)) = .next st' ∧ st'.vars .elements = .vals (acc ++ [v]) ∧ st'.w = w := by
        simp only [itemBody, pgConvertJSONArray]
        pg [h, hw, hx]
        exact ⟨_, rfl, by pg [], rfl⟩
      obtain ⟨st₁, a₁, a₂, a₃⟩ := hb
      have hi := items_pg js n d w (k + 1) st₁ (acc ++ [v]) (by omega) (by omega) (by omega) a₂ a₃
      have hstep : pgRange (fun st => itemBody.exec n (pgRun n d) st) .i .item k ((j :: js).map .json) st =
          pgRange (fun st => itemBody.exec n (pgRun n d) st) .i .item (k + 1) (js.map .json) st₁ := by
        rw [List.map_cons, pgRange, a₁]; rfl
      rw [hstep]
      dsimp only
      cases hts : convertItems (k + 1 + 1) js with
      | ok ts =>
        refine ⟨fun ts' h' => ?_, fun e he => nomatch he⟩
        obtain ⟨st', e₁, e₂, e₃⟩ := hi.1 ts hts
        refine ⟨st', e₁, ?_, e₃⟩
        rw [e₂, ← Except.ok.inj h', List.append_assoc]; rfl
      | error e =>
        refine ⟨fun ts h => (nomatch h), fun e' he => ?_⟩
        rw [← Except.error.inj he]
        exact hi.2 e hts
end

theorem pg_convertJSONValue (j : Json) (hs : j.parts < 4611686018427387904) (hd : 2 * j.parts < d) :
    pgRun n d .convertJSONValue [.json j] w = pgTwo w (convertValue j) := by
  obtain ⟨d, rfl⟩ : ∃ e, d = e + 1 := ⟨d - 1, by omega⟩
  rw [pgRun_succ _ _ _ _ _ _ rfl]
  simp only [PgFn.body, pgConvertJSONValue]
  cases j with
  | null => pg [PgT.isJson, PgT.holds, List.append_nil]; rfl
  | bool _ => pg [PgT.isJson, PgT.holds, List.append_nil]; rfl
  | num _ => pg [PgT.isJson, PgT.holds, PgT.assert, PgV.unpack]; rfl
  | str _ => pg [PgT.isJson, PgT.holds, PgT.assert, PgV.unpack]; rfl
  | obj _ => pg [PgT.isJson, PgT.holds, List.append_nil]; rfl
  | arr l =>
    rw [Json.parts] at hd hs
    pg [PgT.isJson, PgT.holds, PgT.assert, PgV.unpack, array_pg l n d w (by omega) (by omega)]
    rw [convertValue]
    cases convertArray l with
    | ok v => rw [pgTwo]; pg []
    | error e => rw [pgTwo]; pg []

/-! ### The validator -/

/-- The result of a function that returns an error. -/
def pgMaybe (w : PgW) : Option Bytes → PgOut
  | none => .ret [.nil] w
  | some e => .ret [.err e] w

/-- The body of the loop of `validateJSONValue` (/repo/edlisp/parser/json.go:158-162). -/
def validBody : PgS := match pgValidateJSONValue with
  | .if_ _ (.seq _ (.seq _ (.seq _ (.seq _ (.seq (.range _ _ _ b) _))))) _ => b
  | _ => .skip

mutual
theorem valid_pg : ∀ (j : Json) (top : Bool) (n d : Nat) (w : PgW), j.parts < 4611686018427387904 → j.parts < d → pgRun n d .validateJSONValue [.json j, .bool top] w = pgMaybe w (validate top j)
  | .null, top, n, d, w, hs, hd => by
    obtain ⟨d, rfl⟩ : ∃ e, d = e + 1 := ⟨d - 1, by omega⟩
    rw [pgRun_succ _ _ _ _ _ _ rfl]
    simp only [PgFn.body, pgValidateJSONValue]
    pg [PgT.isJson, PgT.holds, List.append_nil]; rfl
  | .bool _, top, n, d, w, hs, hd => by
    obtain ⟨d, rfl⟩ : ∃ e, d = e + 1 := ⟨d - 1, by omega⟩
    rw [pgRun_succ _ _ _ _ _ _ rfl]
    simp only [PgFn.body, pgValidateJSONValue]
    pg [PgT.isJson, PgT.holds, List.append_nil]; rfl
  | .num _, top, n, d, w, hs, hd => by
    obtain ⟨d, rfl⟩ : ∃ e, d = e + 1 := ⟨d - 1, by omega⟩
    rw [pgRun_succ _ _ _ _ _ _ rfl]
    simp only [PgFn.body, pgValidateJSONValue]
    cases top with
    | true => pg [PgT.isJson, PgT.holds, List.append_nil]; rfl
    | false => pg [PgT.isJson, PgT.holds, List.append_nil]; rfl
  | .str _, top, n, d, w, hs, hd => by
    obtain ⟨d, rfl⟩ : ∃ e, d = e + 1 := ⟨d - 1, by omega⟩
    rw [pgRun_succ _ _ _ _ _ _ rfl]
    simp only [PgFn.body, pgValidateJSONValue]
    cases top with
    | true => pg [PgT.isJson, PgT.holds, List.append_nil]; rfl
    | false => pg [PgT.isJson, PgT.holds, List.append_nil]; rfl
  | .obj _, top, n, d, w, hs, hd => by
    obtain ⟨d, rfl⟩ : ∃ e, d = e + 1 := ⟨d - 1, by omega⟩
    rw [pgRun_succ _ _ _ _ _ _ rfl]
    simp only [PgFn.body, pgValidateJSONValue]
    pg [PgT.isJson, PgT.holds, Json.isObj, List.append_nil]; rfl
  | .arr [], top, n, d, w, hs, hd => by
    obtain ⟨d, rfl⟩ : ∃ e, d = e + 1 := ⟨d - 1, by omega⟩
    rw [pgRun_succ _ _ _ _ _ _ rfl]
    simp only [PgFn.body, pgValidateJSONValue]
    pg [PgT.isJson, PgT.holds, PgT.assert, PgV.unpack, List.length_nil, Int.natCast_zero]; rfl
  | .arr (j :: r), top, n, d, w, hs, hd => by
    rw [Json.parts, Json.partsAll] at hs hd
    obtain ⟨d, rfl⟩ : ∃ e, d = e + 1 := ⟨d - 1, by omega⟩
    rw [pgRun_succ _ _ _ _ _ _ rfl]
    simp only [PgFn.body, pgValidateJSONValue]
    have hz : decide (((j :: r).length : Int) = 0) = false := by simp; omega
    cases j with
    | str s =>
      rw [Json.parts] at hs hd
      pg [hz, pgindex_zero, PgT.assert, PgT.assert2, PgT.holds, PgT.isJson, PgV.unpack, pgslice_one, pgexec_range, show (PgV.jsons r).items = .ok (r.map .json) from rfl]
      have hg := valids_pg r n d w 0 ((((((({ vars := fun _ => .nil, w := w } : PgSt).set .value (.json (.arr (.str s :: r)))).set .isTopLevel (.bool top)).set .v (.jsons (.str s :: r))).set .blank (.str s))).set .ok (.bool true))
        (by omega) (by have := Json.partsAll_length r; omega) (by omega) rfl
      rw [Nat.zero_add] at hg
      rw [validate]
      cases hm : validateItems 1 r with
      | none =>
        obtain ⟨st', e₁, e₃⟩ := hg.1 hm
        refine (congrArg (fun o : PgOut => o.andThen _) e₁).trans ?_
        pg [e₃]
        rfl
      | some e =>
        refine (congrArg (fun o : PgOut => o.andThen _) (hg.2 e hm)).trans ?_
        rfl
    | null => pg [hz, pgindex_zero, PgT.assert, PgT.assert2, PgT.holds, PgT.isJson, PgV.unpack, Bool.false_eq_true, List.append_nil]; rfl
    | bool _ => pg [hz, pgindex_zero, PgT.assert, PgT.assert2, PgT.holds, PgT.isJson, PgV.unpack, Bool.false_eq_true, List.append_nil]; rfl
    | num _ => pg [hz, pgindex_zero, PgT.assert, PgT.assert2, PgT.holds, PgT.isJson, PgV.unpack, Bool.false_eq_true, List.append_nil]; rfl
    | arr _ => pg [hz, pgindex_zero, PgT.assert, PgT.assert2, PgT.holds, PgT.isJson, PgV.unpack, Bool.false_eq_true, List.append_nil]; rfl
    | obj _ => pg [hz, pgindex_zero, PgT.assert, PgT.assert2, PgT.holds, PgT.isJson, PgV.unpack, Bool.false_eq_true, List.append_nil]; rfl
theorem valids_pg : ∀ (l : List Json) (n d : Nat) (w : PgW) (k : Nat) (st : PgSt), Json.partsAll l < 4611686018427387904 → k + l.length < 4611686018427387904 →
    Json.partsAll l < d → st.w = w →
    (validateItems (k + 1) l = none → ∃ st', pgRange (fun st => validBody.exec n (pgRun n d) st) .i .item k (l.map .json) st = .next st' ∧ st'.w = w) ∧
    (∀ e, validateItems (k + 1) l = some e → pgRange (fun st => validBody.exec n (pgRun n d) st) .i .item k (l.map .json) st = .ret [.err e] w)
  | [], n, d, w, k, st, _, _, _, hw => ⟨fun _ => ⟨st, rfl, hw⟩, fun e he => nomatch he⟩
  | j :: js, n, d, w, k, st, hs, hk, hd, hw => by
    rw [Json.partsAll] at hs hd
    rw [List.length_cons] at hk
    have hpos := j.parts_pos
    have hx := valid_pg j false n d w (by omega) (by omega)
    have hadd : wrap64 ((k : Int) + 1) = ((k + 1 : Nat) : Int) := by rw [wrap64_eq (by omega) (by omega)]; omega
    rw [validateItems.eq_def]
    dsimp only
    cases hm : validate false j with
    | some e =>
      rw [hm, pgMaybe] at hx
      refine ⟨fun hv => (nomatch hv), fun e' he => ?_⟩
      rw [← Option.some.inj he]
      have hb : validBody.exec n (pgRun n d) ((st.set .i (.int k)).set .item (.json j)) =
          .ret [.err (b! "invalid element at index " ++ natDec (k + 1) ++ b! ": " ++ e)] w := by
        simp only [validBody, pgValidateJSONValue]
        pg [hw, hx, hadd, natDec_int, List.append_nil]
        simp only [List.append_assoc]
      rw [List.map_cons, pgRange, hb]; rfl
    | none =>
      rw [hm, pgMaybe] at hx
      have hb : ∃ st', validBody.exec n (pgRun n d) ((st.set .i (.int k)).set .item (.json j)) = .next st' ∧ st'.w = w := by
        simp only [validBody, pgValidateJSONValue]
        pg [hw, hx]
        exact ⟨_, rfl, rfl⟩
      obtain ⟨st₁, a₁, a₃⟩ := hb
      have hi := valids_pg js n d w (k + 1) st₁ (by omega) (by omega) (by omega) a₃
      have hstep : pgRange (fun st => validBody.exec n (pgRun n d) st) .i .item k ((j :: js).map .json) st =
          pgRange (fun st => validBody.exec n (pgRun n d) st) .i .item (k + 1) (js.map .json) st₁ := by
        rw [List.map_cons, pgRange, a₁]; rfl
      rw [hstep]
      exact hi
end

theorem pg_ValidateJSONFormat (j : Json) (hs : j.parts < 4611686018427387904) (hd : j.parts + 1 < d) :
    pgRun n d .ValidateJSONFormat [.json j] w = pgMaybe w (validateFormat j) := by
  obtain ⟨d, rfl⟩ : ∃ e, d = e + 1 := ⟨d - 1, by omega⟩
  rw [pgRun_succ _ _ _ _ _ _ rfl]
  simp only [PgFn.body, pgValidateJSONFormat]
  pg [valid_pg j true n d w hs (by omega)]
  unfold validateFormat
  cases validate true j with
  | none => rw [pgMaybe]; pg []
  | some e => rw [pgMaybe]; pg []

/-! ### ParseJSONString -/

/-- The results of a function that returns a slice of values and an error. -/
def pgSlice (w : PgW) : Except Bytes (List Value) → PgOut
  | .ok vs => .ret [.vals vs, .nil] w
  | .error e => .ret [.nil, .err e] w

/-- The body of the loop of `ParseJSONString` (/repo/edlisp/parser/json.go:53-65). -/
def commandJsonBody : PgS := match pgParseJSONString with
  | .seq _ (.seq _ (.seq _ (.seq _ (.seq (.range _ _ _ b) _)))) => b
  | _ => .skip

theorem commandsJson_pg : ∀ (l : List Json) (k : Nat) (st : PgSt) (acc : List Value), Json.partsAll l < 4611686018427387904 → 2 * Json.partsAll l + 1 < d → st.vars .expressions = .vals acc → st.w = w →
    (∀ vs, convertCommands k l = .ok vs → ∃ st', pgRange (fun st => commandJsonBody.exec n (pgRun n d) st) .i .rawValue k (l.map .json) st = .next st' ∧ st'.vars .expressions = .vals (acc ++ vs) ∧ st'.w = w) ∧
    (∀ e, convertCommands k l = .error e → pgRange (fun st => commandJsonBody.exec n (pgRun n d) st) .i .rawValue k (l.map .json) st = .ret [.nil, .err e] w) := by
  intro l
  induction l with
  | nil =>
    intro k st acc _ _ h hw
    refine ⟨fun vs hv => ⟨st, rfl, ?_, hw⟩, fun e he => nomatch he⟩
    rw [h, ← Except.ok.inj hv, List.append_nil]
  | cons j js ih =>
    intro k st acc hs hd h hw
    rw [Json.partsAll] at hs hd
    have hpos := j.parts_pos
    have hv := pg_ValidateJSONFormat (n := n) (d := d) (w := w) j (by omega) (by omega)
    have hx := pg_convertJSONValue (n := n) (d := d) (w := w) j (by omega) (by omega)
    rw [convertCommands.eq_def]
    dsimp only
    cases hm : validateFormat j with
    | some e =>
      rw [hm, pgMaybe] at hv
      refine ⟨fun vs hv => (nomatch hv), fun e' he => ?_⟩
      rw [← Except.error.inj he]
      have hb : commandJsonBody.exec n (pgRun n d) ((st.set .i (.int k)).set .rawValue (.json j)) =
          .ret [.nil, .err (b! "invalid format at index " ++ natDec k ++ b! ": " ++ e)] w := by
        simp only [commandJsonBody, pgParseJSONString]
        pg [h, hw, hv, natDec_int, List.append_nil]
        simp only [List.append_assoc]
      rw [List.map_cons, pgRange, hb]; rfl
    | none =>
      rw [hm, pgMaybe] at hv
      dsimp only
      cases hm : convertValue j with
      | error e =>
        rw [hm, pgTwo] at hx
        refine ⟨fun vs hv => (nomatch hv), fun e' he => ?_⟩
        rw [← Except.error.inj he]
        have hb : commandJsonBody.exec n (pgRun n d) ((st.set .i (.int k)).set .rawValue (.json j)) = .ret [.nil, .err e] w := by
          simp only [commandJsonBody, pgParseJSONString]
          pg [h, hw, hv, hx]
        rw [List.map_cons, pgRange, hb]; rfl
      | ok v =>
        rw [hm, pgTwo] at hx
        have hb : ∃ st', commandJsonBody.exec n (pgRun n d) ((st.set .i (.int k)).set .rawValue (.json j)) = .next st' ∧ st'.vars .expressions = .vals (acc ++ [v]) ∧ st'.w = w := by
          simp only [commandJsonBody, pgParseJSONString]
          pg [h, hw, hv, hx]
          exact ⟨_, rfl, by pg [], rfl⟩
        obtain ⟨st₁, a₁, a₂, a₃⟩ := hb
        have hi := ih (k + 1) st₁ (acc ++ [v]) (by omega) (by omega) a₂ a₃
        have hstep : pgRange (fun st => commandJsonBody.exec n (pgRun n d) st) .i .rawValue k ((j :: js).map .json) st =
            pgRange (fun st => commandJsonBody.exec n (pgRun n d) st) .i .rawValue (k + 1) (js.map .json) st₁ := by
          rw [List.map_cons, pgRange, a₁]; rfl
        rw [hstep]
        dsimp only
        cases hts : convertCommands (k + 1) js with
        | ok ts =>
          refine ⟨fun ts' h' => ?_, fun e he => nomatch he⟩
          obtain ⟨st', e₁, e₂, e₃⟩ := hi.1 ts hts
          refine ⟨st', e₁, ?_, e₃⟩
          rw [e₂, ← Except.ok.inj h', List.append_assoc]; rfl
        | error e =>
          refine ⟨fun ts h => (nomatch h), fun e' he => ?_⟩
          rw [← Except.error.inj he]
          exact hi.2 e hts

/-- What package encoding/json makes of a text: an array, or nothing. -/
def jsonArray (s : Bytes) : Option (List Json) :=
  match jsonText s with
  | some (.arr l) => some l
  | some .null => some []
  | _ => none

theorem unmarshal_some {say : Bytes → Bytes} {s : Bytes} {l : List Json} (h : jsonArray s = some l) : pgUnmarshal say s = .tuple [.jsons l, .nil] := by
  unfold jsonArray at h
  unfold pgUnmarshal
  split at h
  · rename_i hj; rw [hj, Option.some.inj h]
  · rename_i hj; rw [hj, ← Option.some.inj h]
  · exact nomatch h

theorem unmarshal_none {say : Bytes → Bytes} {s : Bytes} (h : jsonArray s = none) : pgUnmarshal say s = .tuple [.jsons [], .err (say s)] := by
  unfold jsonArray at h
  unfold pgUnmarshal
  split at h
  · exact nomatch h
  · exact nomatch h
  · rename_i h₁ h₂
    split
    · rename_i hj; exact absurd hj (h₁ _)
    · rename_i hj; exact absurd hj h₂
    · rfl

theorem parseJsonString_some {s : Bytes} {l : List Json} (h : jsonArray s = some l) : parseJsonString s = convertCommands 0 l := by
  unfold jsonArray at h
  unfold parseJsonString
  split at h
  · rename_i hj; rw [hj, Option.some.inj h]
  · rename_i hj; rw [hj, ← Option.some.inj h]; rfl
  · exact nomatch h

theorem parseJsonString_none {s : Bytes} (h : jsonArray s = none) : parseJsonString s = .error (b! "JSON unmarshal error") := by
  unfold jsonArray at h
  unfold parseJsonString
  split at h
  · exact nomatch h
  · exact nomatch h
  · rename_i h₁ h₂
    split
    · rename_i hj; exact absurd hj (h₁ _)
    · rename_i hj; exact absurd hj h₂
    · rfl

theorem pg_ParseJSONString_some (s : Bytes) (l : List Json) (h : jsonArray s = some l) (hs : Json.partsAll l < 4611686018427387904) (hd : 2 * Json.partsAll l + 2 < d) :
    pgRun n d .ParseJSONString [.str s] w = pgSlice w (parseJsonString s) := by
  obtain ⟨d, rfl⟩ : ∃ e, d = e + 1 := ⟨d - 1, by omega⟩
  rw [pgRun_succ _ _ _ _ _ _ rfl]
  simp only [PgFn.body, pgParseJSONString]
  pg [unmarshal_some h, pgexec_range, show (PgV.jsons l).items = .ok (l.map .json) from rfl]
  have hg := commandsJson_pg (n := n) (d := d) (w := w) l 0 ((((((({ vars := fun _ => .nil, w := w } : PgSt).set .s (.str s)).set .rawValues (.jsons []))).set .rawValues (.jsons l)).set .err .nil).set .expressions (.vals [])) [] hs (by omega) (by pg []) rfl
  rw [parseJsonString_some h]
  cases hm : convertCommands 0 l with
  | ok vs =>
    obtain ⟨st', e₁, e₂, e₃⟩ := hg.1 vs hm
    refine (congrArg (fun o : PgOut => o.andThen _) e₁).trans ?_
    pg [e₂, e₃]
    rfl
  | error e =>
    refine (congrArg (fun o : PgOut => o.andThen _) (hg.2 e hm)).trans ?_
    rfl

theorem pg_ParseJSONString_none (s : Bytes) (h : jsonArray s = none) : pgRun n (d + 1) .ParseJSONString [.str s] w = .ret [.nil, .err (b! "JSON unmarshal error: " ++ w.jsonError s)] w := by
  rw [pgRun_succ _ _ _ _ _ _ rfl]
  simp only [PgFn.body, pgParseJSONString]
  pg [unmarshal_none h, List.append_nil]

end Texted
