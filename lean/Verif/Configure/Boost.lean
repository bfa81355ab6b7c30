import Verif.Configure.Model

/-!
# The search for Boost in `configure`

`try_find_boost` (249-309) and the decision about the Python bindings (567-600), once Python has been found. `lib d s`: the directory exists and has the
library `boost_python` with the suffix `s` in one of its three forms (277). `hdr d`: the directory exists and has `boost/version.hpp` (293).
-/

namespace Verif.Configure

/-- Where to look (262-269): the directories for the library, of which there is at least one, and the one for the headers. -/
structure Guess (D : Type) where
  first : D
  rest : List D
  inc : D

/-- The variables: `BOOST_FOUND`, `BOOST_PYTHON_FOUND`, the suffix in `BOOST_PYTHON_LDFLAGS`, the directory in `BOOST_CFLAGS` and that in `BOOST_LDFLAGS`. -/
structure Boost (D S : Type) where
  found : Bool
  pyFound : Bool
  name : Option S
  inc : Option D
  link : Option D

/-- Before the search nothing is set. -/
def Boost.empty {D S : Type} : Boost D S := ⟨false, false, none, none, none⟩

/-- The inner loop (276-285): `BOOST_LIBDIR` afterwards and whether it was left by `break`. -/
def boostRow {D : Type} (good : D → Bool) : D → List D → D × Bool
  | old, [] => (old, false)
  | _, d :: l => if good d then (d, true) else boostRow good d l

/-- The outer loop (275-287): the variables and `BOOST_LIBDIR` afterwards. It is left as soon as `BOOST_PYTHON_FOUND` is set, be it from before. -/
def boostLib {D S : Type} (lib : D → S → Bool) (g : Guess D) : Boost D S × D → List S → Boost D S × D
  | r, [] => r
  | (b, _), s :: l =>
    let q := boostRow (fun d => lib d s) g.first (g.first :: g.rest)
    let b' := if q.2 then { b with pyFound := true, name := some s } else b
    if b'.pyFound then (b', q.1) else boostLib lib g (b', q.1) l

/-- `try_find_boost` (249-309). -/
def tryBoost {D S : Type} (lib : D → S → Bool) (hdr : D → Bool) (suffixes : List S) (b : Boost D S) (g : Guess D) : Boost D S :=
  if b.found then b
  else
    let r := boostLib lib g (b, g.first) suffixes
    if hdr g.inc then { r.1 with found := true, inc := some g.inc, link := some r.2 } else r.1

/-- The calls (582-590): the directories given by hand, if any, then `/usr` and `/usr/local`. -/
def searchBoost {D S : Type} (lib : D → S → Bool) (hdr : D → Bool) (suffixes : List S) (gs : List (Guess D)) : Boost D S :=
  gs.foldl (tryBoost lib hdr suffixes) .empty

/-- Whether `PYTHON_BINDINGS` is still set in the end (567-600). -/
def bindingsBuilt {D S : Type} (asked python numpy : Bool) (b : Boost D S) : Bool :=
  if asked then
    let p := python
    let p := if b.pyFound then p else false
    if numpy then p else false
  else false

end Verif.Configure
