import Verif.Py.Base64
/-!
# Specification: base64 (RFC 4648)
-/
set_option autoImplicit false

namespace Verif.Spec

/-- The `w` binary digits of `n`, the highest first. -/
def bits : Nat → Nat → List Bool
  | 0, _ => []
  | w + 1, n => bits w (n / 2) ++ [decide (n % 2 = 1)]

def alphabet : List Char := "ABCDEFGHIJKLMNOPQRSTUVWXYZabcdefghijklmnopqrstuvwxyz0123456789+/".toList

/-- `t` is the base64 text of the bytes: the letters give six bits each, the bits of the bytes followed by fewer than
six zeros, and `=` fills the last group of four letters. -/
def Base64Text (l : List UInt8) (t : List Char) : Prop :=
  ∃ (ns : List Nat) (z p : Nat), (∀ n ∈ ns, n < 64) ∧ ns.flatMap (bits 6) = l.flatMap (fun a => bits 8 a.toNat) ++ List.replicate z false ∧
    z < 6 ∧ t = ns.map (fun n => alphabet.getD n '=') ++ List.replicate p '=' ∧ p < 4 ∧ 4 ∣ ns.length + p

/-- The characters that count in base64. -/
def letters (s : List Char) : List Char := s.filter fun c => decide (c ∈ alphabet) || decide (c = '=')

end Verif.Spec
