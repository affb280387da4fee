import Verif.Model.Atn
import Verif.Model.AtnData

/-!
# The two networks of this package
-/

namespace Rfc5322.Atn

/-- The network of the generated parser (/repo/parser/rfc5322_parser.go:66-603). -/
def parserNet : Net := (decode parserData).getD ⟨[], [], [], [], []⟩

/-- The network of the generated lexer (/repo/parser/rfc5322_lexer.go:74-203). -/
def lexerNet : Net := (decode lexerData).getD ⟨[], [], [], [], []⟩

end Rfc5322.Atn
