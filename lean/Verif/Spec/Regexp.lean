import Verif.Spec.Text
/- What package regexp documents about a compiled expression, as far as the code uses it. -/
namespace Texted

/-- `M s i j` says that the pattern matches `s` between the offsets `i` and `j`. The compiled expression finds
*leftmost* matches of that relation (which is what package regexp documents). -/
structure LeftmostFor (re : Regex) (M : Bytes → Nat → Nat → Prop) : Prop where
  sound : ∀ s i j, re.find s = some (i, j) → M s i j
  leftmost : ∀ s i j, re.find s = some (i, j) → ∀ i' j', M s i' j' → i ≤ i'
  complete : ∀ s, re.find s = none → ∀ i j, ¬ M s i j

/-- The offset `a` is behind the previous match (everything is, if there is none). -/
def Behind : Option Nat → Nat → Prop
  | none, _ => True
  | some e, a => e < a

/-- Successive, non-overlapping, leftmost matches: each begins where the previous one ended or later, an empty match does not directly
follow another match, no match begins behind the previous one and before the next, and none begins behind the last. The first argument
is the end of the previous match. -/
inductive Successive (M : Nat → Nat → Prop) : Option Nat → List (Nat × Nat) → Prop
  | nil (prev) (h : ∀ a c, Behind prev a → ¬ M a c) : Successive M prev []
  | cons (prev i j l) (hm : M i j) (hp : ∀ e, prev = some e → e < i ∨ (e = i ∧ i < j))
      (hl : ∀ a c, Behind prev a → M a c → i ≤ a) (ht : Successive M (some j) l) : Successive M prev ((i, j) :: l)

/-- The text from offset `p` on, with the listed spans (in order) replaced by what `r` says for them. -/
def substitute (s : Bytes) (r : Nat × Nat → Bytes) : Nat → List (Nat × Nat) → Bytes
  | p, [] => s.drop p
  | p, (i, j) :: l => (s.drop p).take (i - p) ++ r (i, j) ++ substitute s r j l

/-- The documented contract of a compiled expression: the leftmost match and all successive matches. -/
structure EngineFor (re : Regex) (M : Bytes → Nat → Nat → Prop) : Prop where
  inside : ∀ s i j, M s i j → i ≤ j ∧ j ≤ s.length
  first : LeftmostFor re M
  all : ∀ s, Successive (M s) none (re.findAll s)

/-- The span `(i, j)` of a text. -/
def spanText (s : Bytes) (m : Nat × Nat) : Bytes := (s.drop m.1).take (m.2 - m.1)

/-- The text of group `n` of the match `m`: the whole match for 0, nothing for a group that took no part or does not exist. -/
def submatchText (re : Regex) (s : Bytes) (m : Nat × Nat) : Nat → Bytes
  | 0 => spanText s m
  | n + 1 => match (re.groups s m)[n]? with
    | some (some g) => spanText s g
    | _ => []

/-- The text of the first group with that name that took part in the match. -/
def namedText (re : Regex) (s : Bytes) (m : Nat × Nat) (name : Bytes) : Bytes :=
  match (re.names.zip (re.groups s m)).find? fun x => x.1 = name ∧ x.2.isSome with
  | some (_, some g) => spanText s g
  | _ => []

/-- An ASCII letter, digit or underscore. -/
def nameByte (c : UInt8) : Prop := (48 ≤ c ∧ c ≤ 57) ∨ (65 ≤ c ∧ c ≤ 90) ∨ c = 95 ∨ (97 ≤ c ∧ c ≤ 122)

/-- A name as it may follow a `$`. -/
def IsName (name : Bytes) : Prop := name ≠ [] ∧ ∀ c ∈ name, nameByte c

/-- What a reference stands for: a number (below 10^9, in decimal without leading zeros) for the group with that number, any other name
for the group with that name. -/
def Refers (re : Regex) (s : Bytes) (m : Nat × Nat) (name o : Bytes) : Prop :=
  (∃ n, n < 1000000000 ∧ name = natDec n ∧ o = submatchText re s m n) ∨
  ((∀ n, n < 1000000000 → name ≠ natDec n) ∧ o = namedText re s m name)

/-- `Expands re s m t o`: for the match `m` in `s` the replacement `t` produces `o`. `$$` is a `$`; `${name}` and `$name` (the longest
possible name) refer to a group; any other `$` stands for itself, and so does everything else. -/
inductive Expands (re : Regex) (s : Bytes) (m : Nat × Nat) : Bytes → Bytes → Prop
  | nil : Expands re s m [] []
  | char (c : UInt8) (t o : Bytes) : c ≠ 36 → Expands re s m t o → Expands re s m (c :: t) (c :: o)
  | dollar (t o : Bytes) : Expands re s m t o → Expands re s m (36 :: 36 :: t) (36 :: o)
  | braced (name x t o : Bytes) : IsName name → Refers re s m name x → Expands re s m t o →
      Expands re s m (36 :: 123 :: (name ++ 125 :: t)) (x ++ o)
  | bare (name x t o : Bytes) : IsName name → (∀ c ∈ t.head?, ¬ nameByte c) → Refers re s m name x → Expands re s m t o →
      Expands re s m (36 :: (name ++ t)) (x ++ o)
  | lone (t o : Bytes) : t.head? ≠ some 36 → (∀ name r, IsName name → t ≠ name ++ r ∧ t ≠ 123 :: (name ++ 125 :: r)) →
      Expands re s m t o → Expands re s m (36 :: t) (36 :: o)

end Texted
