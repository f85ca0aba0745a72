import Verif.Lemmas.PgEval
import Verif.Model.Writer
/-
`Equal`, the methods `String`, `Len`, `IsEmpty`, `Get` (/repo/edlisp), `ExecutionError.Error` and the writers (/repo/edlisp/writer) as they are
written in Go.
-/
set_option linter.unusedSectionVars false
namespace Texted
variable [Ext] {n d : Nat} {w : PgW}

/-! ### Lists -/

theorem pg_listLen (l : List Value) : pgRun n (d + 1) .listLen [.val (.list l)] w = .ret [.int l.length] w := by
  rw [pgRun_succ _ _ _ _ _ _ rfl]
  simp only [PgFn.body, pgListLen]
  pg []

theorem pg_listIsEmpty (l : List Value) : pgRun n (d + 1) .listIsEmpty [.val (.list l)] w = .ret [.bool (decide (l = []))] w := by
  rw [pgRun_succ _ _ _ _ _ _ rfl]
  simp only [PgFn.body, pgListIsEmpty]
  pg []
  cases l with
  | nil => rfl
  | cons a l => simp; omega

theorem pg_listGet (l : List Value) (i : Int) : pgRun n (d + 1) .listGet [.val (.list l), .int i] w =
    .ret [pgGot (if i < 0 then none else l[i.toNat]?)] w := by
  rw [pgRun_succ _ _ _ _ _ _ rfl]
  simp only [PgFn.body, pgListGet]
  by_cases h : i < 0 ∨ (l.length : Int) ≤ i
  · have hd : (decide (i < 0) || decide ((l.length : Int) ≤ i)) = true := by simpa using h
    pg [hd]
    split
    · rfl
    · rw [List.getElem?_eq_none (by omega)]; rfl
  · have hd : (decide (i < 0) || decide ((l.length : Int) ≤ i)) = false := by simpa using h
    have hlt : i.toNat < l.length := by omega
    have hi : (PgV.vals l).index (.int i) = .ok (.val l[i.toNat]) := by
      show (GoR.orPanic (goAt l i)).bind _ = _
      rw [goAt, if_neg (by omega), List.getElem?_eq_getElem hlt]; rfl
    pg [hd, hi]
    rw [if_neg (by omega), List.getElem?_eq_getElem hlt]; rfl

/-! ### Equal -/

theorem bytes_beq (a b : Bytes) : (a == b) = decide (a = b) := by
  by_cases h : a = b <;> simp [h]


theorem pgEquals_length : ∀ (a b : List Value), a.length ≠ b.length → goEquals a b = false
  | [], [], h => absurd rfl h
  | [], _ :: _, _ => by rw [goEquals.eq_def]
  | _ :: _, [], _ => by rw [goEquals.eq_def]
  | x :: xs, y :: ys, h => by
    rw [goEquals, pgEquals_length xs ys (by simpa using h), Bool.and_false]

/-- The loop of `Equal` (/repo/edlisp/equal.go:46-51) and what follows it: the condition, the body, the step, the rest. -/
def equalParts : PgE × PgS × PgS × PgS := match pgEqual with
  | .seq _ (.seq _ (.seq _ (.if_ _ _ (.if_ _ _ (.if_ _ _ (.if_ _ (.seq _ (.seq _ (.seq _ (.seq _ (.seq (.while c p b) r))))) _)))))) => (c, b, p, r)
  | _ => (.nil, .skip, .skip, .skip)

/-- The loop, `m` rounds, and what follows it. -/
def equalRun (n d m : Nat) (st : PgSt) : PgOut :=
  (pgLoop (fun st => equalParts.1.eval st) (fun st => equalParts.2.1.exec n (pgRun n d) st) (fun st => equalParts.2.2.1.exec n (pgRun n d) st) m st).andThen
    fun st => equalParts.2.2.2.exec n (pgRun n d) st

mutual
theorem equal_pg : ∀ (a b : Value) (n d : Nat) (w : PgW), a.parts < 4611686018427387904 → a.parts ≤ n → a.parts < d →
    pgRun n d .Equal [.val a, .val b] w = .ret [.bool (goEqual a b)] w
  | .list la, b, n, d, w, hs, hn, hd => by
    rw [Value.parts] at hs hn hd
    obtain ⟨d, rfl⟩ : ∃ e, d = e + 1 := ⟨d - 1, by omega⟩
    rw [pgRun_succ _ _ _ _ _ _ rfl]
    simp only [PgFn.body, pgEqual]
    cases b with
    | list lb =>
      by_cases hlen : la.length = lb.length
      · have hne : decide ((la.length : Int) = (lb.length : Int)) = true := by simpa using hlen
        pg [Value.kindName, PgT.isValue, PgT.assert, PgT.holds, PgV.unpack, hne, pgexec_while]
        rw [goEqual]
        exact equals_pg la lb la lb 0 n d n w _ (by omega) (by omega) (by omega) (by have := Value.partsAll_length la; omega) (by have := Value.partsAll_length la; omega) rfl rfl hlen
          (by pg []) (by pg []) (by pg []; rfl) rfl
      · have hne : decide ((la.length : Int) = (lb.length : Int)) = false := by simp; omega
        pg [Value.kindName, PgT.isValue, PgT.assert, PgT.holds, PgV.unpack, hne]
        rw [goEqual, pgEquals_length la lb hlen]
    | _ =>
      pg [Value.kindName, PgT.isValue, List.cons.injEq]
      rw [goEqual.eq_def]
      rfl
  | .sym a, b, n, d, w, hs, hn, hd => by
    obtain ⟨d, rfl⟩ : ∃ e, d = e + 1 := ⟨d - 1, by omega⟩
    rw [pgRun_succ _ _ _ _ _ _ rfl]
    simp only [PgFn.body, pgEqual]
    cases b with
    | sym b =>
      pg [Value.kindName, PgT.isValue, PgT.assert, PgT.holds, PgV.unpack]
      rw [goEqual, bytes_beq]
    | _ =>
      pg [Value.kindName, PgT.isValue, List.cons.injEq]
      rw [goEqual.eq_def]
      rfl
  | .str a, b, n, d, w, hs, hn, hd => by
    obtain ⟨d, rfl⟩ : ∃ e, d = e + 1 := ⟨d - 1, by omega⟩
    rw [pgRun_succ _ _ _ _ _ _ rfl]
    simp only [PgFn.body, pgEqual]
    cases b with
    | str b =>
      pg [Value.kindName, PgT.isValue, PgT.assert, PgT.holds, PgV.unpack]
      rw [goEqual, bytes_beq]
    | _ =>
      pg [Value.kindName, PgT.isValue, List.cons.injEq]
      rw [goEqual.eq_def]
      rfl
  | .num a, b, n, d, w, hs, hn, hd => by
    obtain ⟨d, rfl⟩ : ∃ e, d = e + 1 := ⟨d - 1, by omega⟩
    rw [pgRun_succ _ _ _ _ _ _ rfl]
    simp only [PgFn.body, pgEqual]
    cases b with
    | num b =>
      pg [Value.kindName, PgT.isValue, PgT.assert, PgT.holds, PgV.unpack]
      rw [goEqual]
    | _ =>
      pg [Value.kindName, PgT.isValue, List.cons.injEq]
      rw [goEqual.eq_def]
      rfl
theorem equals_pg (la lb : List Value) : ∀ (ra rb : List Value) (k n d m : Nat) (w : PgW) (st : PgSt), Value.partsAll ra < 4611686018427387904 → Value.partsAll ra ≤ n → Value.partsAll ra < d →
    la.length < 4611686018427387904 → ra.length < m → la.drop k = ra → lb.drop k = rb → la.length = lb.length →
    st.vars .aList = .val (.list la) → st.vars .bList = .val (.list lb) → st.vars .i = .int k → st.w = w →
    equalRun n d m st = .ret [.bool (goEquals ra rb)] w
  | [], rb, k, n, d, m, w, st, _, _, _, _, hm, ha, hb, hlen, h₁, h₂, h₃, hw => by
    obtain ⟨m, rfl⟩ : ∃ e, m = e + 1 := ⟨m - 1, by rw [List.length_nil] at hm; omega⟩
    have hk : la.length ≤ k := List.drop_eq_nil_iff.mp ha
    rw [List.drop_eq_nil_of_le (by omega)] at hb
    subst hb
    have hc : decide ((k : Int) < (la.length : Int)) = false := by simp; omega
    simp only [equalRun, pgLoop, equalParts, pgEqual]
    pg [h₁, h₂, h₃, hw, hc]
    rw [goEquals]
  | x :: xs, rb, k, n, d, m, w, st, hs, hn, hd, hl, hm, ha, hb, hlen, h₁, h₂, h₃, hw => by
    rw [List.length_cons] at hm
    rw [Value.partsAll] at hs hn hd
    have hpos := x.parts_pos
    obtain ⟨m, rfl⟩ : ∃ e, m = e + 1 := ⟨m - 1, by omega⟩
    have hlt := lt_of_drop ha
    cases rb with
    | nil => have := List.drop_eq_nil_iff.mp hb; omega
    | cons y ys =>
      have hc : decide ((k : Int) < (la.length : Int)) = true := by simp; omega
      have hadd : wrap64 ((k : Int) + 1) = ((k + 1 : Nat) : Int) := by rw [wrap64_eq (by omega) (by omega)]; omega
      have hx := equal_pg x y n d w (by omega) (by omega) (by omega)
      rw [goEquals]
      cases he : goEqual x y with
      | true =>
        rw [he] at hx
        have hrun : ∃ st', equalRun n d (m + 1) st = equalRun n d m st' ∧ st'.vars .aList = .val (.list la) ∧ st'.vars .bList = .val (.list lb) ∧ st'.vars .i = .int (k + 1 : Nat) ∧ st'.w = w := by
          simp only [equalRun, pgLoop, equalParts, pgEqual]
          pg [h₁, h₂, h₃, hw, hc, goAt_drop ha, goAt_drop hb, pgGot, hx, hadd]
          exact ⟨_, rfl, by pg [h₁], by pg [h₂], by pg [], rfl⟩
        obtain ⟨st', e₁, e₂, e₃, e₄, e₅⟩ := hrun
        rw [e₁, Bool.true_and]
        exact equals_pg la lb xs ys (k + 1) n d m w st' (by omega) (by omega) (by omega) hl (by omega) (drop_succ_of ha) (drop_succ_of hb) hlen e₂ e₃ e₄ e₅
      | false =>
        rw [he] at hx
        rw [Bool.false_and]
        simp only [equalRun, pgLoop, equalParts, pgEqual]
        pg [h₁, h₂, h₃, hw, hc, goAt_drop ha, goAt_drop hb, pgGot, hx]
end

/-! ### String -/

theorem pgToStrs_join : ∀ l : List Value, Value.toStrs l = joinWith (b! " ") (l.map Value.toStr)
  | [] => rfl
  | [v] => rfl
  | v :: x :: r => by
    rw [Value.toStrs, List.map_cons, List.map_cons, joinWith, pgToStrs_join (x :: r)]
    rfl

/-- The body of the loop of `List.String` (/repo/edlisp/list.go:46-48). -/
def stringBody : PgS := match pgListString with
  | .seq _ (.seq _ (.seq (.range _ _ _ b) _)) => b
  | _ => .skip

theorem pg_numberString (x : F64) : pgRun n (d + 1) .numberString [.val (.num x)] w = .ret [.str (numString x)] w := by
  rw [pgRun_succ _ _ _ _ _ _ rfl]
  simp only [PgFn.body, pgNumberString]
  unfold numString
  cases h : F64.goEq x (F64.ofInt (F64.toInt x)) with
  | true => pg [h]
  | false => pg [h, Bool.false_eq_true]

mutual
theorem verb_pg : ∀ (v : Value) (n d : Nat) (w : PgW), 2 * v.parts < d → pgRun n d .verb [.val v] w = .ret [.str v.toStr] w
  | .sym s, n, d, w, hd => by
    rw [Value.parts] at hd
    obtain ⟨d, rfl⟩ : ∃ e, d = e + 2 := ⟨d - 2, by omega⟩
    have h : pgRun n (d + 1) .symbolString [.val (.sym s)] w = .ret [.str s] w := by
      rw [pgRun_succ _ _ _ _ _ _ rfl]
      simp only [PgFn.body, pgSymbolString]
      pg []
    rw [pgRun_succ _ _ _ _ _ _ rfl]
    simp only [PgFn.body, pgVerb]
    pg [PgT.isValue, h]
    rfl
  | .str s, n, d, w, hd => by
    rw [Value.parts] at hd
    obtain ⟨d, rfl⟩ : ∃ e, d = e + 2 := ⟨d - 2, by omega⟩
    have h : pgRun n (d + 1) .stringString [.val (.str s)] w = .ret [.str (quote s)] w := by
      rw [pgRun_succ _ _ _ _ _ _ rfl]
      simp only [PgFn.body, pgStringString]
      pg []
    rw [pgRun_succ _ _ _ _ _ _ rfl]
    simp only [PgFn.body, pgVerb]
    pg [PgT.isValue, h]
    rfl
  | .num x, n, d, w, hd => by
    rw [Value.parts] at hd
    obtain ⟨d, rfl⟩ : ∃ e, d = e + 2 := ⟨d - 2, by omega⟩
    rw [pgRun_succ _ _ _ _ _ _ rfl]
    simp only [PgFn.body, pgVerb]
    pg [PgT.isValue, pg_numberString]
    rfl
  | .list l, n, d, w, hd => by
    rw [Value.parts] at hd
    obtain ⟨d, rfl⟩ : ∃ e, d = e + 2 := ⟨d - 2, by omega⟩
    have h : pgRun n (d + 1) .listString [.val (.list l)] w = .ret [.str (Value.list l).toStr] w := by
      rw [pgRun_succ _ _ _ _ _ _ rfl]
      simp only [PgFn.body, pgListString]
      by_cases hl : l = []
      · subst hl
        pg [List.length_nil, Int.natCast_zero]
        rfl
      · have hz : decide ((l.length : Int) = 0) = false := by
          have := List.length_pos_iff.mpr hl
          simp; omega
        pg [hz, pgexec_range, show (PgV.vals l).items = .ok (l.map .val) from rfl]
        obtain ⟨st', e₁, e₂, e₃⟩ := verbs_pg l n d w 0 (((({ vars := fun _ => .nil, w := w } : PgSt).set .list (.val (.list l)))).set .parts (.strs [])) [] (by omega) (by pg []) rfl
        refine (congrArg (fun o : PgOut => o.andThen _) e₁).trans ?_
        pg [e₂, e₃]
        rw [Value.toStr, pgToStrs_join]
        rfl
    rw [pgRun_succ _ _ _ _ _ _ rfl]
    simp only [PgFn.body, pgVerb]
    pg [PgT.isValue, h]
theorem verbs_pg : ∀ (l : List Value) (n d : Nat) (w : PgW) (k : Nat) (st : PgSt) (acc : List Bytes), 2 * Value.partsAll l < d → st.vars .parts = .strs acc → st.w = w →
    ∃ st', pgRange (fun st => stringBody.exec n (pgRun n d) st) .blank .element k (l.map .val) st = .next st' ∧ st'.vars .parts = .strs (acc ++ l.map Value.toStr) ∧ st'.w = w
  | [], n, d, w, k, st, acc, _, h, hw => ⟨st, rfl, by rw [h, List.map_nil, List.append_nil], hw⟩
  | v :: vs, n, d, w, k, st, acc, hd, h, hw => by
    rw [Value.partsAll] at hd
    have hx := verb_pg v n d w (by omega)
    have hb : ∃ st', stringBody.exec n (pgRun n d) ((st.set .blank (.int k)).set .element (.val v)) = .next st' ∧ st'.vars .parts = .strs (acc ++ [v.toStr]) ∧ st'.w = w := by
      simp only [stringBody, pgListString]
      pg [h, hw, hx]
      exact ⟨_, rfl, by pg [], rfl⟩
    obtain ⟨st₁, a₁, a₂, a₃⟩ := hb
    obtain ⟨st', e₁, e₂, e₃⟩ := verbs_pg vs n d w (k + 1) st₁ (acc ++ [v.toStr]) (by omega) a₂ a₃
    refine ⟨st', ?_, ?_, e₃⟩
    · rw [List.map_cons, pgRange, a₁]; exact e₁
    · rw [e₂, List.map_cons, List.append_assoc]; rfl
end

theorem pg_symbolString (s : Bytes) : pgRun n (d + 1) .symbolString [.val (.sym s)] w = .ret [.str s] w := by
  rw [pgRun_succ _ _ _ _ _ _ rfl]
  simp only [PgFn.body, pgSymbolString]
  pg []

theorem pg_stringString (s : Bytes) : pgRun n (d + 1) .stringString [.val (.str s)] w = .ret [.str (quote s)] w := by
  rw [pgRun_succ _ _ _ _ _ _ rfl]
  simp only [PgFn.body, pgStringString]
  pg []

theorem pg_listString (l : List Value) (hd : 2 * Value.partsAll l + 1 < d) : pgRun n d .listString [.val (.list l)] w = .ret [.str (Value.list l).toStr] w := by
  obtain ⟨d, rfl⟩ : ∃ e, d = e + 1 := ⟨d - 1, by omega⟩
  rw [pgRun_succ _ _ _ _ _ _ rfl]
  simp only [PgFn.body, pgListString]
  by_cases hl : l = []
  · subst hl
    pg [List.length_nil, Int.natCast_zero]
    rfl
  · have hz : decide ((l.length : Int) = 0) = false := by
      have := List.length_pos_iff.mpr hl
      simp; omega
    pg [hz, pgexec_range, show (PgV.vals l).items = .ok (l.map .val) from rfl]
    obtain ⟨st', e₁, e₂, e₃⟩ := verbs_pg l n d w 0 (((({ vars := fun _ => .nil, w := w } : PgSt).set .list (.val (.list l)))).set .parts (.strs [])) [] (by omega) (by pg []) rfl
    refine (congrArg (fun o : PgOut => o.andThen _) e₁).trans ?_
    pg [e₂, e₃]
    rw [Value.toStr, pgToStrs_join]
    rfl

/-! ### The message of an error -/

theorem natDec_int (k : Nat) : intDec (k : Int) = natDec k := by
  simp [intDec]

theorem pg_errorMessage (e : ExecutionError) (hd : 2 * e.currentInstruction.parts + 1 < d) : pgRun n d .errorMessage [.xerr e] w = .ret [.str e.message] w := by
  obtain ⟨d, rfl⟩ : ∃ e, d = e + 1 := ⟨d - 1, by omega⟩
  rw [pgRun_succ _ _ _ _ _ _ rfl]
  simp only [PgFn.body, pgErrorMessage]
  pg [ExecutionError.get, verb_pg e.currentInstruction n d w (by omega), natDec_int, List.nil_append]
  unfold ExecutionError.message
  simp only [List.append_assoc]

/-! ### The writers -/

/-- The body of the loop of `valueToJSON` (/repo/edlisp/writer/json.go:44-50). -/
def jsonBody : PgS := match pgValueToJSON with
  | .if_ _ (.seq _ (.seq _ (.seq (.range _ _ _ b) _))) _ => b
  | _ => .skip

mutual
theorem toJson_pg : ∀ (v : Value) (n d : Nat) (w : PgW), v.parts < d → pgRun n d .valueToJSON [.writer, .val v] w = .ret [.json (valueToJson v), .nil] w
  | .sym s, n, d, w, hd => by
    obtain ⟨d, rfl⟩ : ∃ e, d = e + 1 := ⟨d - 1, by omega⟩
    rw [pgRun_succ _ _ _ _ _ _ rfl]
    simp only [PgFn.body, pgValueToJSON]
    pg [PgT.isValue, PgT.assert, PgT.holds, PgV.unpack, PgV.toJson]
    rfl
  | .str s, n, d, w, hd => by
    obtain ⟨d, rfl⟩ : ∃ e, d = e + 1 := ⟨d - 1, by omega⟩
    rw [pgRun_succ _ _ _ _ _ _ rfl]
    simp only [PgFn.body, pgValueToJSON]
    pg [PgT.isValue, PgT.assert, PgT.holds, PgV.unpack, PgV.toJson]
    rfl
  | .num s, n, d, w, hd => by
    obtain ⟨d, rfl⟩ : ∃ e, d = e + 1 := ⟨d - 1, by omega⟩
    rw [pgRun_succ _ _ _ _ _ _ rfl]
    simp only [PgFn.body, pgValueToJSON]
    pg [PgT.isValue, PgT.assert, PgT.holds, PgV.unpack, PgV.toJson]
    rfl
  | .list l, n, d, w, hd => by
    rw [Value.parts] at hd
    obtain ⟨d, rfl⟩ : ∃ e, d = e + 1 := ⟨d - 1, by omega⟩
    rw [pgRun_succ _ _ _ _ _ _ rfl]
    simp only [PgFn.body, pgValueToJSON]
    pg [PgT.isValue, PgT.assert, PgT.holds, PgV.unpack, pgexec_range, show (PgV.vals l).items = .ok (l.map .val) from rfl]
    obtain ⟨st', e₁, e₂, e₃⟩ := toJsons_pg l n d w 0 (((((({ vars := fun _ => .nil, w := w } : PgSt).set .w .writer).set .value (.val (.list l))).set .v (.val (.list l)))).set .jsonArray (.jsons [])) []
      (by omega) (by pg []) (by pg []) rfl
    refine (congrArg (fun o : PgOut => o.andThen _) e₁).trans ?_
    pg [e₂, e₃, PgV.toJson, List.nil_append]
    rfl
theorem toJsons_pg : ∀ (l : List Value) (n d : Nat) (w : PgW) (k : Nat) (st : PgSt) (acc : List Json), Value.partsAll l < d → st.vars .jsonArray = .jsons acc → st.vars .w = .writer → st.w = w →
    ∃ st', pgRange (fun st => jsonBody.exec n (pgRun n d) st) .blank .element k (l.map .val) st = .next st' ∧ st'.vars .jsonArray = .jsons (acc ++ valuesToJson l) ∧ st'.w = w
  | [], n, d, w, k, st, acc, _, h, _, hw => ⟨st, rfl, by rw [h, valuesToJson, List.append_nil], hw⟩
  | v :: vs, n, d, w, k, st, acc, hd, h, hr, hw => by
    rw [Value.partsAll] at hd
    have hx := toJson_pg v n d w (by have := v.parts_pos; omega)
    have hb : ∃ st', jsonBody.exec n (pgRun n d) ((st.set .blank (.int k)).set .element (.val v)) = .next st' ∧ st'.vars .jsonArray = .jsons (acc ++ [valueToJson v]) ∧ st'.vars .w = .writer ∧ st'.w = w := by
      simp only [jsonBody, pgValueToJSON]
      pg [h, hw, hr, hx, PgV.toJson]
      exact ⟨_, rfl, by pg [], by pg [hr], rfl⟩
    obtain ⟨st₁, a₁, a₂, a₃, a₄⟩ := hb
    obtain ⟨st', e₁, e₂, e₃⟩ := toJsons_pg vs n d w (k + 1) st₁ (acc ++ [valueToJson v]) (by have := v.parts_pos; omega) a₂ a₃ a₄
    refine ⟨st', ?_, ?_, e₃⟩
    · rw [List.map_cons, pgRange, a₁]; exact e₁
    · rw [e₂, valuesToJson, List.append_assoc]; rfl
end

theorem pg_valueToToken (v : Value) (hd : 4 ≤ d) : pgRun n d .valueToToken [.writer, .val v] w =
    (match shellToken v with
    | .ok t => .ret [.str t, .nil] w
    | .error e => .ret [.str [], .err e] w) := by
  obtain ⟨d, rfl⟩ : ∃ e, d = e + 1 := ⟨d - 1, by omega⟩
  rw [pgRun_succ _ _ _ _ _ _ rfl]
  simp only [PgFn.body, pgValueToToken]
  cases v with
  | sym s => pg [PgT.isValue, PgT.assert, PgT.holds, PgV.unpack]; rfl
  | str s => pg [PgT.isValue, PgT.assert, PgT.holds, PgV.unpack]; rfl
  | num x => pg [PgT.isValue, PgT.assert, PgT.holds, PgV.unpack, verb_pg (.num x) n d w (by rw [Value.parts]; omega)]; rfl
  | list l => pg [PgT.isValue, PgT.assert, PgT.holds, PgV.unpack, List.append_nil]; rfl

/-- The body of the loop of `valueToShellString` (/repo/edlisp/writer/shell.go:50-56). -/
def shellBody : PgS := match pgValueToShellString with
  | .seq _ (.seq _ (.seq _ (.seq _ (.seq (.range _ _ _ b) _)))) => b
  | _ => .skip

theorem shellTokens_pg (hd : 4 ≤ d) : ∀ (l : List Value) (k : Nat) (st : PgSt) (acc : List Bytes), st.vars .parts = .strs acc → st.vars .w = .writer → st.w = w →
    (∀ ts, shellTokens l = .ok ts → ∃ st', pgRange (fun st => shellBody.exec n (pgRun n d) st) .blank .element k (l.map .val) st = .next st' ∧ st'.vars .parts = .strs (acc ++ ts) ∧ st'.w = w) ∧
    (∀ e, shellTokens l = .error e → pgRange (fun st => shellBody.exec n (pgRun n d) st) .blank .element k (l.map .val) st = .ret [.str [], .err e] w) := by
  intro l
  induction l with
  | nil =>
    intro k st acc h _ hw
    refine ⟨fun ts ht => ⟨st, rfl, ?_, hw⟩, fun e he => nomatch he⟩
    rw [h, ← Except.ok.inj ht, List.append_nil]
  | cons v vs ih =>
    intro k st acc h hr hw
    have hx := pg_valueToToken (n := n) (d := d) (w := w) v hd
    rw [shellTokens.eq_def]
    dsimp only
    cases ht : shellToken v with
    | error e =>
      rw [ht] at hx
      dsimp only at hx
      refine ⟨fun ts h => (nomatch h), fun e' he => ?_⟩
      rw [← Except.error.inj he]
      have hb : shellBody.exec n (pgRun n d) ((st.set .blank (.int k)).set .element (.val v)) = .ret [.str [], .err e] w := by
        simp only [shellBody, pgValueToShellString]
        pg [h, hw, hr, hx]
      rw [List.map_cons, pgRange, hb]; rfl
    | ok t =>
      rw [ht] at hx
      dsimp only at hx
      have hb : ∃ st', shellBody.exec n (pgRun n d) ((st.set .blank (.int k)).set .element (.val v)) = .next st' ∧ st'.vars .parts = .strs (acc ++ [t]) ∧ st'.vars .w = .writer ∧ st'.w = w := by
        simp only [shellBody, pgValueToShellString]
        pg [h, hw, hr, hx]
        exact ⟨_, rfl, by pg [], by pg [hr], rfl⟩
      obtain ⟨st₁, a₁, a₂, a₃, a₄⟩ := hb
      have hi := ih (k + 1) st₁ (acc ++ [t]) a₂ a₃ a₄
      have hstep : pgRange (fun st => shellBody.exec n (pgRun n d) st) .blank .element k ((v :: vs).map .val) st =
          pgRange (fun st => shellBody.exec n (pgRun n d) st) .blank .element (k + 1) (vs.map .val) st₁ := by
        rw [List.map_cons, pgRange, a₁]; rfl
      rw [hstep]
      dsimp only
      cases hts : shellTokens vs with
      | ok ts =>
        refine ⟨fun ts' h' => ?_, fun e he => nomatch he⟩
        obtain ⟨st', e₁, e₂, e₃⟩ := hi.1 ts hts
        refine ⟨st', e₁, ?_, e₃⟩
        rw [e₂, ← Except.ok.inj h', List.append_assoc]; rfl
      | error e =>
        refine ⟨fun ts h => (nomatch h), fun e' he => ?_⟩
        rw [← Except.error.inj he]
        exact hi.2 e hts

theorem pg_valueToShellString (v : Value) (hd : 5 ≤ d) : pgRun n d .valueToShellString [.writer, .val v] w =
    (match shellString v with
    | .ok t => .ret [.str t, .nil] w
    | .error e => .ret [.str [], .err e] w) := by
  obtain ⟨d, rfl⟩ : ∃ e, d = e + 1 := ⟨d - 1, by omega⟩
  rw [pgRun_succ _ _ _ _ _ _ rfl]
  simp only [PgFn.body, pgValueToShellString]
  cases v with
  | sym s => pg [PgT.isValue, PgT.assert2, PgT.holds, PgV.unpack, Bool.false_eq_true, List.append_nil]; rfl
  | str s => pg [PgT.isValue, PgT.assert2, PgT.holds, PgV.unpack, Bool.false_eq_true, List.append_nil]; rfl
  | num x => pg [PgT.isValue, PgT.assert2, PgT.holds, PgV.unpack, Bool.false_eq_true, List.append_nil]; rfl
  | list l =>
    cases l with
    | nil => pg [PgT.isValue, PgT.assert2, PgT.holds, PgV.unpack, List.length_nil, Int.natCast_zero]; rfl
    | cons a l =>
      have hz : decide (((a :: l).length : Int) = 0) = false := by simp; omega
      pg [PgT.isValue, PgT.assert2, PgT.holds, PgV.unpack, hz, pgexec_range, show (PgV.vals (a :: l)).items = .ok ((a :: l).map .val) from rfl]
      have hg := shellTokens_pg (n := n) (d := d) (w := w) (by omega) (a :: l) 0 ((((((({ vars := fun _ => .nil, w := w } : PgSt).set .w .writer).set .value (.val (.list (a :: l)))).set .list (.val (.list (a :: l)))).set .ok (.bool true))).set .parts (.strs [])) []
        (by pg []) (by pg []) rfl
      cases hts : shellTokens (a :: l) with
      | ok ts =>
        have hsh : shellString (.list (a :: l)) = .ok (joinWith (b! " ") ts) := by
          unfold shellString; dsimp only; rw [hts]
        obtain ⟨st', e₁, e₂, e₃⟩ := hg.1 ts hts
        rw [hsh]
        refine (congrArg (fun o : PgOut => o.andThen _) e₁).trans ?_
        pg [e₂, e₃, List.nil_append]
      | error e =>
        have hsh : shellString (.list (a :: l)) = .error e := by
          unfold shellString; dsimp only; rw [hts]
        rw [hsh]
        refine (congrArg (fun o : PgOut => o.andThen _) (hg.2 e hts)).trans ?_
        rfl

end Texted
