import Verif.Model.EditCmd
/- Which syntax the flags of `texted edit` ask for. -/
namespace Texted
namespace Spec

/-- The syntax asked for: the shorthand flags override the format option, `shell` before `sexp` before `json`. -/
inductive AsksFor (a : EditArgs) : Bytes → Prop
  | shell : a.shell = true → AsksFor a (b! "shell")
  | sexp : a.shell = false → a.sexp = true → AsksFor a (b! "sexp")
  | json : a.shell = false → a.sexp = false → a.json = true → AsksFor a (b! "json")
  | format : a.shell = false → a.sexp = false → a.json = false → AsksFor a a.scriptFormat

/-- The same arguments without shorthand flags, with that format option. -/
def withFormat (a : EditArgs) (f : Bytes) : EditArgs := { a with shell := false, sexp := false, json := false, scriptFormat := f }

end Spec
end Texted
