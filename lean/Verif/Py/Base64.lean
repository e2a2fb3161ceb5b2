import Verif.Py.Num
/-!
# `base64.b64encode` and `base64.b64decode`

Models the Python runtime (`Lib/base64.py`, `Modules/binascii.c`): encoding with the standard alphabet and
padding, decoding in the default, non-strict mode, which skips characters outside the alphabet and stops at
a complete padding.
-/
set_option autoImplicit false

namespace Verif
namespace B64

/-- The character for six bits. -/
def char (n : Nat) : Char :=
  if n < 26 then Char.ofNat (n + 65)
  else if n < 52 then Char.ofNat (n - 26 + 97)
  else if n < 62 then Char.ofNat (n - 52 + 48)
  else if n = 62 then '+'
  else '/'

/-- The six bits for a character of the alphabet. -/
def value (c : Char) : Option Nat :=
  let n := c.toNat
  if 65 ≤ n ∧ n ≤ 90 then some (n - 65)
  else if 97 ≤ n ∧ n ≤ 122 then some (n - 97 + 26)
  else if 48 ≤ n ∧ n ≤ 57 then some (n - 48 + 52)
  else if n = 43 then some 62
  else if n = 47 then some 63
  else none

/-- `binascii.b2a_base64(data, newline=False)` -/
def encode : List UInt8 → List Char
  | [] => []
  | [a] => [char (a.toNat / 4), char (a.toNat % 4 * 16), '=', '=']
  | [a, b] =>
      [char (a.toNat / 4), char (a.toNat % 4 * 16 + b.toNat / 16), char (b.toNat % 16 * 4), '=']
  | a :: b :: c :: l =>
      char (a.toNat / 4) :: char (a.toNat % 4 * 16 + b.toNat / 16) ::
      char (b.toNat % 16 * 4 + c.toNat / 64) :: char (c.toNat % 64) :: encode l

/-- The loop of `binascii.a2b_base64` in non-strict mode: `quad` is the position in the group of four,
`left` the bits not yet used, `pads` the number of padding characters just seen.  Groups that are not
complete at the end raise `binascii.Error`. -/
def decodeLoop (quad left pads : Nat) : List Char → Option (List UInt8)
  | [] => if quad = 0 then some [] else none
  | c :: l =>
    if c = '=' then
      if quad ≥ 2 then
        if quad + (pads + 1) ≥ 4 then some [] else decodeLoop quad left (pads + 1) l
      else decodeLoop quad left pads l
    else
      match value c with
      | none => decodeLoop quad left pads l
      | some v =>
        if quad = 0 then decodeLoop 1 v 0 l
        else if quad = 1 then (decodeLoop 2 (v % 16) 0 l).map (UInt8.ofNat (left * 4 + v / 16) :: ·)
        else if quad = 2 then (decodeLoop 3 (v % 4) 0 l).map (UInt8.ofNat (left * 16 + v / 4) :: ·)
        else (decodeLoop 0 0 0 l).map (UInt8.ofNat (left * 64 + v) :: ·)

/-- `base64.b64decode(s)` for a string: `ValueError` if it is not ASCII, `binascii.Error` (`none`) if it is
not base64. -/
def decode (s : List Char) : Except Exc (Option (List UInt8)) :=
  if s.all (fun c => c.toNat < 128) then .ok (decodeLoop 0 0 0 s) else .error .valueError

end B64
end Verif
