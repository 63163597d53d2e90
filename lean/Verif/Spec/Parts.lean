import Verif.Spec.Reader
/-!
# How a mail program reads the header of a part (specification)

After RFC 2045 (5.1: a value and parameters, separated by semicolons; parameter values may be quoted strings) and RFC 2183.
-/
namespace Verif.Spec
open Verif

/-- RFC 5322 3.2.4: what stands in a quoted string, read up to the closing quote; a backslash is dropped and the character behind it is taken. -/
def unquoted : Bytes → Bytes
  | [] => []
  | [c] => if c = 34 ∨ c = 92 then [] else [c]
  | c :: d :: r => if c = 34 then [] else if c = 92 then d :: unquoted r else c :: unquoted (d :: r)

/-- The value of a parameter. -/
def paramValue : Bytes → Bytes
  | [] => []
  | c :: r => if c = 34 then unquoted r else trimmed (c :: r)

/-- A parameter: name, equals sign, value. -/
def param (p : Bytes) : Bytes × Bytes :=
  let p := p.dropWhile isBlank
  (p.takeWhile (· ≠ 61), paramValue ((p.dropWhile (· ≠ 61)).drop 1))

/-- The value of a field without its parameters. -/
def mainValue (v : Bytes) : Bytes := trimmed ((cutAt 59 .plain v).headD [])

/-- The values of the parameters with this name. -/
def paramsNamed (n v : Bytes) : List Bytes :=
  (((cutAt 59 .plain v).tail.map param).filter fun q => decide (EqIgnoringCase q.1 n)).map (·.2)

/-- RFC 2045 7: the identification between angle brackets. -/
def idIn (v : Bytes) : Bytes := ((v.dropWhile (· ≠ 60)).drop 1).takeWhile (· ≠ 62)

-- A quoted name with a semicolon and an escaped quote.
example : paramsNamed b!"filename" b!" attachment; x=1 ; FileName=\"a;\\\"b\"" = [b!"a;\"b"] ∧ mainValue b!" text/plain ; a=b" = b!"text/plain" ∧
    paramsNamed b!"x" b!" attachment; x=1 ; y=2" = [b!"1"] ∧ idIn b!" <a@b>" = b!"a@b" := by decide +kernel

end Verif.Spec
