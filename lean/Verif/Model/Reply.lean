import Verif.Model.Bytes
/-!
# Model of the functions that read server replies

`extractReturnCode`, `ParseAuthenticationOptions`, `extractAuthenticationOptions` (src/smtpclientbase.cpp),
`ServerOptionsAnalyzer::containsAllOptions` (src/serveroptionsanalyzer.cpp) and `struct ServerAuthOptions`
(src/serverauthoptions.h).
-/
namespace Verif.Model
open Verif

/-- The characters `strtol` skips in front of a number, "C" locale. Used by `std::stoi` (smtpclientbase.cpp:1072). -/
def stolSpace (c : UInt8) : Bool := (9 ≤ c && c ≤ 13) || c == 32

/-- The decimal digits `strtol` reads (smtpclientbase.cpp:1072, base 10). -/
def isDigit (c : UInt8) : Bool := 48 ≤ c && c ≤ 57

/-- Value of a run of digits, `strtol` base 10. -/
def digitsVal (ds : Bytes) : Nat := ds.foldl (fun a c => a * 10 + (c.toNat - 48)) 0

/-- `std::stoi(s)`, smtpclientbase.cpp:1072: white space, optional sign, digits; `none` is the exception `invalid_argument`.
The code only applies it to at most three characters, so `out_of_range` cannot happen and is not modelled. -/
def stoi (s : Bytes) : Option Int :=
  let s := s.dropWhile stolSpace
  match s with
  | [] => none
  | c :: r =>
    let neg := c == 45
    let ds := (if c == 45 || c == 43 then r else c :: r).takeWhile isDigit
    if ds.isEmpty then none
    else some (if neg then - (digitsVal ds : Int) else (digitsVal ds : Int))

/-- `SMTPClientBase::extractReturnCode`, smtpclientbase.cpp:1068-1079. The argument is a `const char*`. -/
def extractReturnCode (p : Option Bytes) : Int :=
  match p with
  | none => -1
  | some s =>
    let s := cstr s
    if 3 ≤ s.length then (stoi (s.take 3)).getD (-1) else -1

/-- `struct ServerAuthOptions`, src/serverauthoptions.h:7-14. -/
structure AuthOptions where
  plain : Bool := false
  login : Bool := false
  xoauth2 : Bool := false
  plainClientToken : Bool := false
  oauthBearer : Bool := false
  xoauth : Bool := false
  deriving DecidableEq, Repr

/-- The loop that cuts the line at every space, smtpclientbase.cpp:1092-1099: `find(' ')`, `push_back`, `erase`; the rest of
the line is pushed last. -/
def splitSpace : Bytes → List Bytes
  | [] => [[]]
  | c :: s =>
    match splitSpace s with
    | [] => [[]]  -- not reached: the result is never empty
    | w :: ws => if c = 32 then [] :: w :: ws else (c :: w) :: ws

/-- The body of the `for_each`, smtpclientbase.cpp:1101-1115. -/
def setOption (o : AuthOptions) (option : Bytes) : AuthOptions :=
  if option = b!"PLAIN" then { o with plain := true }
  else if option = b!"LOGIN" then { o with login := true }
  else if option = b!"XOAUTH2" then { o with xoauth2 := true }
  else if option = b!"PLAIN-CLIENTTOKEN" then { o with plainClientToken := true }
  else if option = b!"OAUTHBEARER" then { o with oauthBearer := true }
  else if option = b!"XOAUTH" then { o with xoauth := true }
  else o

/-- `ParseAuthenticationOptions`, smtpclientbase.cpp:1081-1118. -/
def parseAuthOptions (line : Bytes) : Option AuthOptions :=
  if line.take 8 = b!"250-AUTH" ∨ line.take 8 = b!"250 AUTH" then
    some ((splitSpace line).foldl setOption {})
  else none

/-- The `while` loop of `extractAuthenticationOptions`, smtpclientbase.cpp:1128-1139. The loop removes at least two bytes in
every round; `fuel` counts rounds, the caller gives the length of the text. -/
def extractAuthLoop : Nat → Bytes → Option AuthOptions → Option AuthOptions
  | 0, _, ret => ret
  | fuel + 1, s, ret =>
    match findSub b!"\r\n" s with
    | none => ret
    | some i =>
      match parseAuthOptions (s.take i) with
      | some o => some o
      | none =>
        let s' := s.drop (i + 2)
        extractAuthLoop fuel s' (if !s'.isEmpty && ret.isNone then parseAuthOptions s' else ret)

/-- `SMTPClientBase::extractAuthenticationOptions`, smtpclientbase.cpp:1120-1141. The argument is a `const char*`. -/
def extractAuthOptions (p : Option Bytes) : Option AuthOptions :=
  match p with
  | none => none
  | some s => extractAuthLoop (cstr s).length (cstr s) none

/-- `ServerOptionsAnalyzer::containsAllOptions`, serveroptionsanalyzer.cpp:6-24. -/
def containsAllOptions (s : Bytes) : Bool :=
  let s := if 2 ≤ s.length ∧ s.drop (s.length - 2) = b!"\r\n" then s.take (s.length - 2) else s
  let start := match rfindSub b!"\r\n" s with
    | none => 0
    | some i => i + 2
  substr s start 4 == b!"250 "

end Verif.Model
