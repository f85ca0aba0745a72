import Verif.Model.Basic
/- GENERATED by tools/go2cg.py: the variables behind the options, and the functions that the commands call. -/
namespace Texted

/-- The variables of the functions that make the commands (/repo/commands/*.go). -/
inductive CgVar where
  | backupSuffix
  | category
  | dryRun
  | failOnly
  | inPlace
  | «include»
  | inputFormat
  | «json»
  | outputFile
  | outputFormat
  | «prefix»
  | quiet
  | scriptFile
  | scriptFormat
  | sexp
  | shell
  | trace
  | verbose
  deriving DecidableEq

/-- The functions that the commands call. -/
inductive CgFn where
  | runEdit
  | runParse
  | runTests
  | runDoc
  | runMCPServer
  deriving DecidableEq

end Texted
