import Verif.Base.Res
import Verif.Model.ThreeVector

set_option autoImplicit false

/-!
# `Source/IO/Input/ini.cpp` and `Source/IO/Input/INIReader.cpp`

A file is a list of characters; each character stands for one byte. Pointers into the line buffer
become suffixes of the line. The build options are those of `ini.hh:65-128`: multi-line values, BOM
and inline comments allowed, a stack buffer of `INI_MAX_LINE` = 200 bytes, parsing goes on after an
error.
-/

namespace QED
namespace Ini

/-- C strings end at the first NUL. -/
def cstr (s : List Char) : List Char := s.takeWhile (· ≠ '\x00')

/-- `isspace` in the C locale. -/
def isSpace (c : Char) : Bool :=
  c = ' ' || c = '\t' || c = '\n' || c = '\x0b' || c = '\x0c' || c = '\r'

/-- `rstrip` (`ini.cpp:33-40`). -/
def rstrip (s : List Char) : List Char := (s.reverse.dropWhile isSpace).reverse

/-- `lskip` (`ini.cpp:42-48`). -/
def lskip (s : List Char) : List Char := s.dropWhile isSpace

/-- `find_chars_or_comment` (`ini.cpp:50-68`): what lies before the returned pointer, and the string
at that pointer. `stop` says which characters are in `chars`. -/
def findFrom (stop : Char → Bool) : Bool → List Char → List Char × List Char
  | _, [] => ([], [])
  | wasSpace, c :: cs =>
    if stop c || (wasSpace && c = ';') then ([], c :: cs)
    else
      let r := findFrom stop (isSpace c) cs
      (c :: r.1, r.2)

/-- `find_chars_or_comment` from the start of a string. -/
def findCharsOrComment (stop : Char → Bool) (s : List Char) : List Char × List Char :=
  findFrom stop false s

/-- `strncpy0` into a buffer of 50 bytes (`ini.cpp:24-25,70-76`). -/
def strncpy50 (s : List Char) : List Char := s.take 49

/-- One call of the handler: section, name, value. -/
structure Call where
  sect : List Char
  name : List Char
  value : List Char
  deriving DecidableEq, Repr

/-- The local variables of `ini_parse_stream` (`ini.cpp:94-101`) and the handler calls so far. -/
structure PState where
  sect : List Char
  prevName : List Char
  lineno : Nat
  error : Nat
  calls : List Call
  deriving DecidableEq, Repr

/-- The initial state (`ini.cpp:94-101`). -/
def PState.init : PState := ⟨[], [], 0, 0, []⟩

/-- The byte order mark (`ini.cpp:144-146`). -/
def bom : List Char := ['\xef', '\xbb', '\xbf']

/-- `if (... && !error) error = lineno` (`ini.cpp:170-173`, `196-199`). -/
def PState.fail (st : PState) : PState :=
  if st.error = 0 then { st with error := st.lineno } else st

/-- The body of the loop of `ini_parse_stream` for one buffer of text (`ini.cpp:138-201`). The
handler of this program always returns 1, so it never sets `error`. -/
def lineStep (st0 : PState) (buf : List Char) : PState :=
  let st := { st0 with lineno := st0.lineno + 1 }
  let line := cstr buf
  let hasBom := st.lineno = 1 ∧ bom.isPrefixOf line = true
  let start0 := if hasBom then line.drop 3 else line
  let start := lskip (rstrip start0)
  -- `start > line`
  let moved := hasBom ∨ start0.head?.any isSpace = true
  match start with
  | [] => st
  | c :: rest =>
    if c = ';' ∨ c = '#' then st
    else if st.prevName ≠ [] ∧ moved then
      { st with calls := st.calls ++ [⟨st.sect, st.prevName, start⟩] }
    else if c = '[' then
      match findCharsOrComment (· = ']') rest with
      | (name, ']' :: _) => { st with sect := strncpy50 name, prevName := [] }
      | _ => st.fail
    else
      match findCharsOrComment (fun c => c = '=' || c = ':') start with
      | (before, d :: after) =>
        if d = '=' ∨ d = ':' then
          let name := rstrip before
          let value := rstrip (lskip (findCharsOrComment (fun _ => false) after).1)
          { st with prevName := strncpy50 name, calls := st.calls ++ [⟨st.sect, name, value⟩] }
        else st.fail
      | _ => st.fail

/-- The successive results of `fgets(line, 200, file)`: at most 199 characters each, ending after a
newline (`ini.cpp:118`, `ini.hh:99-103`). `room` is the space left in the buffer, `cur` what has been
read into it. -/
def fgetsAll (room : Nat) (cur : List Char) : List Char → List (List Char)
  | [] => if cur = [] then [] else [cur]
  | c :: cs =>
    if c = '\n' ∨ room ≤ 1 then (cur ++ [c]) :: fgetsAll 199 [] cs
    else fgetsAll (room - 1) (cur ++ [c]) cs

/-- `ini_parse_stream` over the buffers (`ini.cpp:117-207`). -/
def parseBuffers (bufs : List (List Char)) : PState := bufs.foldl lineStep PState.init

/-- `ini_parse_file` (`ini.cpp:214-217`). -/
def parseFile (text : List Char) : PState := parseBuffers (fgetsAll 199 [] text)

/-- `std::transform(..., ::tolower)`. -/
def lower (s : List Char) : List Char := s.map Char.toLower

/-- `INIReader::MakeKey` (`INIReader.cpp:130-136`). -/
def makeKey (sect name : List Char) : List Char := lower (sect ++ '=' :: name)

end Ini

open Ini

/-- `class INIReader` (`INIReader.hh:66-69`): the map of values, the sections and the parse error. -/
structure Reader where
  error : Nat
  values : List Char → Option (List Char)
  sections : List (List Char)

namespace Reader

/-- The reader before parsing. -/
def empty : Reader := ⟨0, fun _ => none, []⟩

/-- `ValueHandler` (`INIReader.cpp:143-157`). -/
def handle (r : Reader) (c : Call) : Reader :=
  let key := makeKey c.sect c.name
  let old := (r.values key).getD []
  let new := (if old ≠ [] then old ++ ['\n'] else old) ++ c.value
  { r with
    values := fun k => if k = key then some new else r.values k
    sections := if c.sect ∈ r.sections then r.sections else r.sections ++ [c.sect] }

/-- The constructor on an existing file with the given text (`INIReader.cpp:22-34`). -/
def ofFile (text : List Char) : Reader :=
  let st := parseFile text
  { st.calls.foldl handle empty with error := st.error }

/-- The constructor: a missing file ends the program (`INIReader.cpp:22-34`). -/
def new (file : Option (List Char)) : Res Reader :=
  match file with
  | none => .exit 1
  | some text => .ok (ofFile text)

/-- `Get` (`INIReader.cpp:41-46`). -/
def get (r : Reader) (sect name dflt : List Char) : List Char :=
  (r.values (makeKey sect name)).getD dflt

/-- `GetString` (`INIReader.cpp:48-52`). -/
def getString (r : Reader) (sect name dflt : List Char) : List Char :=
  let s := r.get sect name []
  if s = [] then dflt else s

/-- `HasValue` (`INIReader.cpp:124-128`). -/
def hasValue (r : Reader) (sect name : List Char) : Bool := (r.values (makeKey sect name)).isSome

/-- `GetBoolean` (`INIReader.cpp:73-84`). -/
def getBoolean (r : Reader) (sect name : List Char) (dflt : Bool) : Bool :=
  let v := lower (r.get sect name [])
  if v ∈ ["true".toList, "yes".toList, "on".toList, "1".toList] then true
  else if v ∈ ["false".toList, "no".toList, "off".toList, "0".toList] then false
  else dflt

end Reader

/-! ## Numbers -/

namespace Num

/-- Value of a digit in bases up to 16. -/
def digitVal (c : Char) : Option Nat :=
  if '0' ≤ c ∧ c ≤ '9' then some (c.toNat - 48)
  else if 'a' ≤ c ∧ c ≤ 'f' then some (c.toNat - 87)
  else if 'A' ≤ c ∧ c ≤ 'F' then some (c.toNat - 55)
  else none

/-- Is `c` a digit in base `b`? -/
def isDigit (b : Nat) (c : Char) : Bool := (digitVal c).any (· < b)

/-- The value of a string of digits in base `b`. -/
def ofDigits (b : Nat) (s : List Char) : Nat :=
  s.foldl (fun n c => n * b + (digitVal c).getD 0) 0

/-- An optional sign: whether it is a minus, and the rest. -/
def sign : List Char → Bool × List Char
  | '-' :: cs => (true, cs)
  | '+' :: cs => (false, cs)
  | cs => (false, cs)

/-- `strtol(s, &end, 0)`: `none` if nothing was converted, otherwise the value, clipped to the range
of a 64-bit `long` (`INIReader.cpp:60-61`). -/
def strtol (s : List Char) : Option Int :=
  let (neg, t) := sign (lskip s)
  let (base, digits) :=
    match t with
    | '0' :: x :: d :: rest =>
      if (x = 'x' ∨ x = 'X') ∧ isDigit 16 d then (16, (d :: rest).takeWhile (isDigit 16))
      else (8, t.takeWhile (isDigit 8))
    | '0' :: _ => (8, t.takeWhile (isDigit 8))
    | _ => (10, t.takeWhile (isDigit 10))
  if digits = [] then none
  else
    let n : Int := ofDigits base digits
    let v := if neg then -n else n
    some (max (-(2 ^ 63)) (min (2 ^ 63 - 1) v))

/-- An exponent part `e[sign]digits` if there is a complete one. -/
def exponent (s : List Char) : Option (Int × List Char) :=
  match s with
  | c :: cs =>
    if c = 'e' ∨ c = 'E' then
      let (neg, t) := sign cs
      let ds := t.takeWhile (isDigit 10)
      if ds = [] then none
      else some (if neg then -(ofDigits 10 ds : Int) else ofDigits 10 ds, t.drop ds.length)
    else none
  | [] => none

/-- The decimal value of digits before and after the point with an exponent. -/
def decimal (ip fp : List Char) (ex : Int) : ℚ :=
  (ofDigits 10 (ip ++ fp) : ℚ) * (10 : ℚ) ^ (ex - fp.length)

/-- `strtod` restricted to decimal notation (`INIReader.cpp:69-70`): `none` if nothing was converted.
Simplified: hexadecimal floats, `inf` and `nan` are not modelled, and the result is the exact
rational, without rounding, overflow or underflow. -/
def strtod (s : List Char) : Option ℚ :=
  let (neg, t) := sign (lskip s)
  let ip := t.takeWhile (isDigit 10)
  let t1 := t.drop ip.length
  let (fp, t2) :=
    match t1 with
    | '.' :: cs => let fp := cs.takeWhile (isDigit 10); (fp, cs.drop fp.length)
    | _ => ([], t1)
  if ip = [] ∧ fp = [] then none
  else
    let ex := match exponent t2 with
      | some (e, _) => e
      | none => 0
    some (if neg then -decimal ip fp ex else decimal ip fp ex)

/-- One `stream >> value` for a `double` (`INIReader.cpp:110`, and the table files): the characters are
collected as libstdc++ does, an optional sign, digits, an optional point and digits, and, after at least
one digit, an optional exponent; the extraction fails if there is no digit before the exponent or if an
exponent has no digits. Otherwise the value and the rest. Simplified: the result is the exact rational. -/
def extract (s : List Char) : Option (ℚ × List Char) :=
  let (neg, t) := sign (lskip s)
  let ip := t.takeWhile (isDigit 10)
  let t1 := t.drop ip.length
  let (fp, t2) :=
    match t1 with
    | '.' :: cs => let fp := cs.takeWhile (isDigit 10); (fp, cs.drop fp.length)
    | _ => ([], t1)
  if ip = [] ∧ fp = [] then none
  else
    match t2 with
    | c :: cs =>
      if c = 'e' ∨ c = 'E' then
        let (eneg, u) := sign cs
        let ds := u.takeWhile (isDigit 10)
        if ds = [] then none
        else
          let e : Int := if eneg then -(ofDigits 10 ds : Int) else ofDigits 10 ds
          some (if neg then -decimal ip fp e else decimal ip fp e, u.drop ds.length)
      else some (if neg then -decimal ip fp 0 else decimal ip fp 0, t2)
    | [] => some (if neg then -decimal ip fp 0 else decimal ip fp 0, [])

/-- The characters `GetThreeVector` keeps (`INIReader.cpp:91-98`). Simplified: `std::isdigit` on a
negative `char` (bytes from 128) is taken to be false, as it is in practice. -/
def vecChar (c : Char) : Bool := c = '.' || c = '-' || c = ' ' || c = 'e' || isDigit 10 c

/-- All numbers until the first failing extraction (`INIReader.cpp:110-119`). Every successful
extraction takes at least one character, so the length of the text is enough fuel. -/
def extractAll : Nat → List Char → List ℚ
  | 0, _ => []
  | fuel + 1, s =>
    match extract s with
    | none => []
    | some (q, rest) => q :: extractAll fuel rest

end Num

namespace Reader

variable {D : Type} [Dbl D]

/-- `GetInteger` (`INIReader.cpp:54-62`). -/
def getInteger (r : Reader) (sect name : List Char) (dflt : Int) : Int :=
  (Num.strtol (r.get sect name [])).getD dflt

/-- `GetReal` (`INIReader.cpp:64-71`). -/
def getReal (r : Reader) (sect name : List Char) (dflt : D) : D :=
  match Num.strtod (r.get sect name []) with
  | some q => Dbl.lit q
  | none => dflt

/-- `GetThreeVector` on the text of a value (`INIReader.cpp:101-121`). -/
def threeVectorOf (text : List Char) : Res (V3 D) :=
  let s := text.filter Num.vecChar
  match Num.extractAll s.length s with
  | [] => .ok V3.zero
  | [a] => .ok ⟨Dbl.lit a, Dbl.lit 0, Dbl.lit 0⟩
  | [a, b] => .ok ⟨Dbl.lit a, Dbl.lit b, Dbl.lit 0⟩
  | [a, b, c] => .ok ⟨Dbl.lit a, Dbl.lit b, Dbl.lit c⟩
  | _ => .exit 1

/-- `GetThreeVector` (`INIReader.cpp:86-122`): the default value is not used. -/
def getThreeVector (r : Reader) (sect name : List Char) (_dflt : V3 D) : Res (V3 D) :=
  threeVectorOf (r.get sect name [])

end Reader

end QED
