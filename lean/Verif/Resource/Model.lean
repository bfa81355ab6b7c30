/-!
# Where the data are

`src/resources.cpp`, the header written by `configure` (658-684) and the two `sed` lines of the installation (865-866). A library is the list of its bytes,
taken as characters. Not modelled: where the linker and the loader put the flag (any place), and the copying of the data (871-873).
-/

namespace Verif.Resource

/-- `INSTALL_FLAG_PREFIX` (configure 658). -/
def flagPrefix : List Char :=
    ['N', 'U', 'S', 'Q', 'U', 'I', 'D', 'S', '_', 'D', 'A', 'T', 'A', '_', 'P', 'A', 'T', 'H', '_', 'I', 'N', 'S', 'T', 'A', 'L',
   'L', '_', 'F', 'L', 'A', 'G', '_', 'P', 'R', 'E', 'F', 'I', 'X', '_']

/-- `INSTALL_FLAG_SUFFIX` (657). -/
def flagSuffix : List Char :=
    ['_', 'N', 'U', 'S', 'Q', 'U', 'I', 'D', 'S', '_', 'D', 'A', 'T', 'A', '_', 'P', 'A', 'T', 'H', '_', 'I', 'N', 'S', 'T', 'A',
   'L', 'L', '_', 'F', 'L', 'A', 'G', '_', 'S', 'U', 'F', 'F', 'I', 'X']

/-- `INSTALL_FLAG_OFF` (658). -/
def flagOff : Char := 'A'

/-- `INSTALL_FLAG_ON` (659). -/
def flagOn : Char := 'B'

/-- The text of `dataPathBitContainer` (675) with a value of the flag; also the two sides of `REPLACE_INSTALL_FLAG` (660). -/
def container (flag : Char) : List Char := flagPrefix ++ flag :: flagSuffix

/-- `sed 's|pat|rep|g'`: from the left, without overlaps; `skip` characters still belong to the last match. The pattern contains no line break, so
that lines do not matter. -/
def sedFrom (pat rep : List Char) : Nat → List Char → List Char
  | _, [] => []
  | skip + 1, _ :: s => sedFrom pat rep skip s
  | 0, c :: s => if pat.isPrefixOf (c :: s) then rep ++ sedFrom pat rep (pat.length - 1) s else c :: sedFrom pat rep 0 s

/-- The library that `make install` writes (865, 866). -/
def install (library : List Char) : List Char := sedFrom (container flagOff) (container flagOn) 0 library

/-- `getInstallBit` (677-680) in a library in which `dataPathBitContainer` is found at the offset `at`. `none` if there is nothing there. -/
def getInstallBit (library : List Char) (offset : Nat) : Option Bool := (library[offset + flagPrefix.length]?).map (· != flagOff)

/-- `getResourcePath` (resources.cpp 8-15); `env` is the value of `NUSQUIDS_DATA_PATH`; `source` and `pre` are `SOURCE_PATH` and `PREFIX` of
`configure` (666-667). -/
def getResourcePath (env : Option String) (library : List Char) (offset : Nat) (source pre : String) : Option String :=
  match env with
  | some path => some path
  | none =>
    (getInstallBit library offset).map fun bit => if bit then pre ++ "/share/nuSQuIDS/" else source ++ "/data/"

end Verif.Resource
