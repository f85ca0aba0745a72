import Verif.Model.Docs
/-
The documentation registry as a shared object: /repo/edlisp/documentation_registry.go. Its functions may be called by several goroutines at the
same time; a `sync.RWMutex` guards the map. Every function here is a sequence of separate actions, and the actions of different goroutines
interleave freely.

What is assumed of Go: `sync.RWMutex` (a call of Lock first announces itself, after which no reader gets in, and then waits until the readers
that are in have left; the announcement itself waits until no other writer has announced itself), and that ranging over a map which is not
changed meanwhile visits every entry once, in any order. What is not assumed: that a map is read and written in one piece. A loop over the map
takes one entry at a time from the map as it is at that moment.
-/
namespace Texted

/-- The functions that ask: /repo/edlisp/documentation_registry.go:26-31, 35-50, 54-71, 75-93, 96-100. -/
inductive DocQuery where
  | byName (name : Bytes)
  | all
  | byCategory (category : Bytes)
  | categories
  | count
  deriving DecidableEq

/-- A call of one of the exported functions. -/
inductive RegCall where
  | register (d : FunctionDoc)
  | query (q : DocQuery)
  deriving DecidableEq

/-- What a call returns. -/
inductive DocAnswer where
  | done
  | found (r : Option FunctionDoc)
  | docs (ds : List FunctionDoc)
  | names (ns : List Bytes)
  | number (n : Nat)
  deriving DecidableEq

/-- Where a goroutine is in the function it has called. -/
inductive DocPhase where
  /-- in none of them -/
  | idle
  /-- :19, before `registryMutex.Lock()` -/
  | wants (d : FunctionDoc)
  /-- :19, in `Lock()`, announced, waiting for the readers to leave -/
  | waits (d : FunctionDoc)
  /-- :21, before the assignment -/
  | writing (d : FunctionDoc)
  /-- :22, before the deferred `Unlock()` -/
  | written (d : FunctionDoc)
  /-- :22, before it returns -/
  | stored (d : FunctionDoc)
  /-- before `registryMutex.RLock()` -/
  | asks (q : DocQuery)
  /-- behind `RLock()`; the loop has visited these entries -/
  | reading (q : DocQuery) (seen : List FunctionDoc)
  /-- the value is computed, before the deferred `RUnlock()` -/
  | answered (q : DocQuery) (a : DocAnswer)
  /-- before it returns -/
  | released (q : DocQuery) (a : DocAnswer)

/-- The actions. -/
inductive DocAct where
  | call (c : RegCall)
  | announce
  | lock
  | assign (d : FunctionDoc)
  | unlock
  | rlock
  | visit (d : FunctionDoc)
  | compute
  | runlock
  | ret (c : RegCall) (a : DocAnswer)

/-- The map, the mutex (has a writer announced itself? how many readers are in?) and the goroutines. -/
structure DocState where
  reg : Registry
  writer : Bool
  readers : Nat
  threads : List DocPhase

/-- What is computed behind the loop, from the visited entries: /repo/edlisp/documentation_registry.go:44-47 (GetAllDocumentation),
:59-68 (GetDocumentationByCategory), :80-92 (GetCategories). -/
def Computes : DocQuery → List FunctionDoc → DocAnswer → Prop
  | .all, seen, a => ∃ out, SortedByName seen out ∧ a = .docs out
  | .byCategory c, seen, a => ∃ out, SortedByName (seen.filter fun d => d.category = c) out ∧ a = .docs out
  | .categories, seen, a => ∃ keys out, MapKeys ((seen.map (·.category)).filter fun c => c ≠ []) keys ∧ out.Perm keys ∧
      out.Pairwise (fun a b => ¬ b < a) ∧ a = .names out
  | .byName _, _, _ => False
  | .count, _, _ => False

/-- The function has a loop over the map. -/
def DocQuery.loops : DocQuery → Bool
  | .all => true
  | .byCategory _ => true
  | .categories => true
  | .byName _ => false
  | .count => false

/-- Goroutine `t` is now at `p`. -/
def DocState.at (s : DocState) (t : Nat) (p : DocPhase) : DocState := { s with threads := s.threads.set t p }

/-- One action of goroutine `t`. -/
inductive DocStep : DocState → Nat × DocAct → DocState → Prop
  /-- RegisterDocumentation is called. -/
  | callRegister {s : DocState} {t : Nat} {d : FunctionDoc} (h : s.threads[t]? = some .idle) :
      DocStep s (t, .call (.register d)) (s.at t (.wants d))
  /-- One of the others is called. -/
  | callQuery {s : DocState} {t : Nat} {q : DocQuery} (h : s.threads[t]? = some .idle) :
      DocStep s (t, .call (.query q)) (s.at t (.asks q))
  /-- :19 `registryMutex.Lock()`, its first half. -/
  | announce {s : DocState} {t : Nat} {d : FunctionDoc} (h : s.threads[t]? = some (.wants d)) (hw : s.writer = false) :
      DocStep s (t, .announce) ({ s with writer := true }.at t (.waits d))
  /-- :19 `registryMutex.Lock()`, its second half. -/
  | lock {s : DocState} {t : Nat} {d : FunctionDoc} (h : s.threads[t]? = some (.waits d)) (hr : s.readers = 0) :
      DocStep s (t, .lock) (s.at t (.writing d))
  /-- :21 `documentationRegistry[doc.Name] = doc`. -/
  | assign {s : DocState} {t : Nat} {d : FunctionDoc} (h : s.threads[t]? = some (.writing d)) :
      DocStep s (t, .assign d) ({ s with reg := s.reg.register d }.at t (.written d))
  /-- :20 `defer registryMutex.Unlock()`. -/
  | unlock {s : DocState} {t : Nat} {d : FunctionDoc} (h : s.threads[t]? = some (.written d)) :
      DocStep s (t, .unlock) ({ s with writer := false }.at t (.stored d))
  /-- :22 RegisterDocumentation returns. -/
  | retRegister {s : DocState} {t : Nat} {d : FunctionDoc} (h : s.threads[t]? = some (.stored d)) :
      DocStep s (t, .ret (.register d) .done) (s.at t .idle)
  /-- :27, :36, :55, :76, :97 `registryMutex.RLock()`. -/
  | rlock {s : DocState} {t : Nat} {q : DocQuery} (h : s.threads[t]? = some (.asks q)) (hw : s.writer = false) :
      DocStep s (t, .rlock) ({ s with readers := s.readers + 1 }.at t (.reading q []))
  /-- :29 `doc, exists := documentationRegistry[name]`. -/
  | look {s : DocState} {t : Nat} {name : Bytes} {seen : List FunctionDoc} (h : s.threads[t]? = some (.reading (.byName name) seen)) :
      DocStep s (t, .compute) (s.at t (.answered (.byName name) (.found (s.reg.lookup name))))
  /-- :99 `len(documentationRegistry)`. -/
  | count {s : DocState} {t : Nat} {seen : List FunctionDoc} (h : s.threads[t]? = some (.reading .count seen)) :
      DocStep s (t, .compute) (s.at t (.answered .count (.number s.reg.length)))
  /-- :40-42, :59-63, :80-84: the loop takes an entry it has not visited. -/
  | visit {s : DocState} {t : Nat} {q : DocQuery} {seen : List FunctionDoc} {d : FunctionDoc}
      (h : s.threads[t]? = some (.reading q seen)) (hq : q.loops = true) (hd : d ∈ s.reg) (hn : ∀ x ∈ seen, x.name ≠ d.name) :
      DocStep s (t, .visit d) (s.at t (.reading q (seen ++ [d])))
  /-- The loop ends when the map has no other entry; then the value is computed. -/
  | compute {s : DocState} {t : Nat} {q : DocQuery} {seen : List FunctionDoc} {a : DocAnswer}
      (h : s.threads[t]? = some (.reading q seen)) (he : ∀ d ∈ s.reg, ∃ x ∈ seen, x.name = d.name) (hc : Computes q seen a) :
      DocStep s (t, .compute) (s.at t (.answered q a))
  /-- :28, :37, :56, :77, :98 `defer registryMutex.RUnlock()`. -/
  | runlock {s : DocState} {t : Nat} {q : DocQuery} {a : DocAnswer} (h : s.threads[t]? = some (.answered q a)) :
      DocStep s (t, .runlock) ({ s with readers := s.readers - 1 }.at t (.released q a))
  /-- The function returns. -/
  | retQuery {s : DocState} {t : Nat} {q : DocQuery} {a : DocAnswer} (h : s.threads[t]? = some (.released q a)) :
      DocStep s (t, .ret (.query q) a) (s.at t .idle)

/-- The actions of `trace`, in this order, lead from `s` to `s'`. -/
inductive DocRun : DocState → List (Nat × DocAct) → DocState → Prop
  | nil (s : DocState) : DocRun s [] s
  | snoc {s s1 s2 : DocState} {trace : List (Nat × DocAct)} {e : Nat × DocAct} (h : DocRun s trace s1) (hs : DocStep s1 e s2) :
      DocRun s (trace ++ [e]) s2

/-- The program starts: the map is empty (:10), the mutex is free (:13), `n` goroutines. -/
def docStart (n : Nat) : DocState := { reg := [], writer := false, readers := 0, threads := List.replicate n .idle }

end Texted
