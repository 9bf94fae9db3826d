import Verif.Tr.Commands
import Verif.Spl.Grammar
/-
The external parameters used in the tests and in the concrete witnesses.
-/
namespace Verif.Tests

/-- The regular expression used by the one `rex` test. -/
def ext : Ext where
  parseRe _ := some (.concat [.leaf, .group (.name c!"from" 1) (.repetition .leaf), .leaf,
    .group (.name c!"to" 2) (.repetition .leaf), .leaf])
  order := id

end Verif.Tests
