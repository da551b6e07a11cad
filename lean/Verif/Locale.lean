import Verif.Lookup

/-!
# The charset of the locale (`lib/locale_charset.c`, `lib/localecharset/*.h`)

Strings are lists of bytes without their terminating NUL.
-/

namespace Reiconv

/-- What `getenv` gives for the three variables, and `setlocale(LC_CTYPE, NULL)`; `none` is NULL. -/
structure LocaleEnv where
  lcAll : Option (List Byte)
  lcCtype : Option (List Byte)
  lang : Option (List Byte)
  current : Option (List Byte)

/-- `IS_INVALID_LOCALE` (`lib/localecharset/lc_utils.h:38`). -/
def isInvalidLocale : Option (List Byte) → Bool
  | none => true
  | some s => s.isEmpty

/-- `GET_LOCALE` (`lib/localecharset/lc_utils.h:40-57`). -/
def getLocale (e : LocaleEnv) : Option (List Byte) :=
  let locale := e.lcAll
  if isInvalidLocale locale then
    let locale := e.lcCtype
    if isInvalidLocale locale then
      let locale := e.lang
      if isInvalidLocale locale then e.current else locale
    else locale
  else locale

/-- `strcmp`: the difference of the first differing bytes, the terminating NUL included. -/
def strCmp : List Byte → List Byte → Int
  | [], [] => 0
  | [], y :: _ => 0 - y.toNat
  | x :: _, [] => x.toNat
  | x :: a, y :: b => if x = y then strCmp a b else (x.toNat : Int) - y.toNat

/-- The binary search of `locale_charset` (`lib/locale_charset.c:90-117`). -/
def tableSearch (table : List (List Byte × List Byte)) (locale : List Byte) :
    Nat → Nat → Nat → Outcome (Option (List Byte))
  | 0, _, _ => .diverge
  | fuel + 1, lo, hi =>
    if lo < hi then
      let mid := (hi + lo) / 2
      match table[mid]? with
      | none => .ub
      | some e =>
        let cmp := strCmp e.1 locale
        if cmp < 0 then tableSearch table locale fuel (mid + 1) hi
        else if cmp > 0 then tableSearch table locale fuel lo mid
        else .ok (some e.2)
    else .ok none

/-- `locale_table` (`lib/localecharset/locale_table.h:34-114`). -/
def localeRows : List (List Byte × List Byte) := localeTable.map fun p => (lit p.1, lit p.2)

/-- `REICONV_DEFAULT_CHARSET` (`lib/localecharset/lc_types.h:27`). -/
def REICONV_DEFAULT_CHARSET : List Byte := lit "UTF-8"

/-- `strchr(locale, '.')` and `p + 1` (`lib/locale_charset.c:120-129`). -/
def afterDot : List Byte → List Byte
  | [] => REICONV_DEFAULT_CHARSET
  | c :: s => if c = 0x2e then s else afterDot s

/-- `windows_getcp` (`lib/localecharset/windows_getcp.h:36-345`), for the code page `cp` the system
reports. -/
def windowsGetcp (cp : Nat) : String :=
  match winNames.find? fun r => Nat.beq r.1 cp with
  | some r => r.2
  | none => "ASCII"

/-- The configurations `locale_charset` is compiled for. -/
inductive Platform where
  /-- `IS_WINDOWS_NATIVE`, or Cygwin without `nl_langinfo`, with the code page of the system. -/
  | windows (cp : Nat)
  /-- Mac OS X, BeOS, Haiku, Android. -/
  | unicode
  /-- `HAVE_LANGINFO_CODESET`, with what `nl_langinfo(CODESET)` gives. -/
  | langinfo (codeset : List Byte)
  /-- FreeBSD without `nl_langinfo`. -/
  | freebsd
  /-- Any other system without `nl_langinfo`. -/
  | other

/-- `locale_charset` (`lib/locale_charset.c:62-144`). The two last cases pass the locale to `strcmp` and
`strchr`, which is undefined for NULL. -/
def localeCharset (p : Platform) (e : LocaleEnv) : Outcome (List Byte) :=
  match p with
  | .windows cp => .ok (lit (windowsGetcp cp))
  | .unicode => .ok (lit "UTF-8")
  | .langinfo codeset => .ok codeset
  | .freebsd =>
    match getLocale e with
    | none => .ub
    | some locale => do
      let codeset ← tableSearch localeRows locale (localeRows.length + 1) 0 localeRows.length
      match codeset with
      | some c => .ok c
      | none => .ok (afterDot locale)
  | .other =>
    match getLocale e with
    | none => .ub
    | some locale => .ok (afterDot locale)

end Reiconv
