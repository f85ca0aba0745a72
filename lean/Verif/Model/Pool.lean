import Verif.Model.Proc
/-
Several programs running at the same time on the same files: requests served concurrently by the MCP server (/repo/commands/mcp.go:46-60
`server.ServeStdio`), or several `texted` processes.
-/
namespace Texted

/-- One of the programs takes a step. Programs share files only through the operating system, so any interleaving of their steps is
possible. -/
inductive PoolStep {α : Type} : List (Run α) × World → List (Run α) × World → Prop
  | one {rs : List (Run α)} {w : World} {i : Nat} {r r' : Run α} {w' : World} :
      rs[i]? = some r → Step (r, w) (r', w') → PoolStep (rs, w) (rs.set i r', w')

/-- Any number of steps. -/
inductive PoolSteps {α : Type} : List (Run α) × World → List (Run α) × World → Prop
  | refl {c} : PoolSteps c c
  | step {a b c} : PoolStep a b → PoolSteps b c → PoolSteps a c

end Texted
