import Verif.Lookup

/-!
# The C++ interface (`lib/reiconv.cpp`)
-/

namespace Reiconv

/-- Construction of a `reiconv::Encoding` (`lib/reiconv.cpp:32-48`) from the result of the lookup:
`none` is the exception `std::invalid_argument`. -/
def encodingOf (index : Int) : Option Int := if index = -1 then none else some index

/-- How a call of `reiconv::convert` ends. -/
inductive CppOut where
  /-- It returns this string. -/
  | ret (s : List Byte)
  /-- It throws `std::system_error` with this code. -/
  | systemError (e : Errno)
  /-- It throws `std::length_error` (from the constructor of `std::string`). -/
  | lengthError
  /-- It throws `std::bad_alloc` (from the constructor of `std::string`). -/
  | badAlloc
  deriving Repr, DecidableEq

/-- `closed`: no descriptor opened by the call is left open. -/
structure CppRes where
  out : CppOut
  closed : Bool
  deriving Repr, DecidableEq

/-- `(size_t)(-1)`. -/
def SIZE_MAX : Nat := 2 ^ 64 - 1

/-- `reiconv::convert` (`lib/reiconv.cpp:52-73`), with `c` the functions of the two encodings. `mem`:
`malloc` in `reiconv_open_from_index` succeeds; `maxSize`: `std::string::max_size()`; `alloc n`: there is
memory for a string of `n` bytes. -/
def cppConvert (mem : Bool) (maxSize : Nat) (alloc : Nat → Bool) (c : Conv) (inp : List Byte) :
    Outcome CppRes :=
  if mem then do
    let (sz, s) ← resultSize c St.init inp
    let outlen := match sz with
      | .ok n => n
      | .error _ => SIZE_MAX
    if outlen > maxSize then .ok ⟨.lengthError, false⟩
    else if alloc outlen then do
      let (r, _, b) ← convertStatic c s inp ⟨false, [], List.replicate outlen 0⟩
      match r with
      | .error e => .ok ⟨.systemError e, true⟩
      | .ok _ => .ok ⟨.ret (b.out ++ b.room), true⟩
    else .ok ⟨.badAlloc, false⟩
  else .ok ⟨.systemError .ENOMEM, true⟩

end Reiconv
