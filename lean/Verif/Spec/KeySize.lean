import Verif.Model.KeyInfo

/-! # Sizes of keys -/

namespace Asn1.Spec
open Asn1 KeyInfo

/-- `k` octets are needed for `n`. -/
def OctetsOf (n k : Nat) : Prop := n < 256 ^ k ∧ ∀ j, n < 256 ^ j → k ≤ j

/-- `n` is not within one part in `2 ^ 32` of the power `b` of two. -/
def AwayFrom (b n : Nat) : Prop := b * (2 ^ 32 + 1) ≤ n * 2 ^ 32 ∨ n * 2 ^ 32 ≤ b * (2 ^ 32 - 1)

/-- Numbers of at most 16384 bits. -/
def Handled (n : Nat) : Prop := n < 2 ^ 16384

/-- What is assumed of `math.log(n, 2)` in double precision for `n` of up to 16384 bits: rounding errors do not cross an integer unless `n`
is within one part in `2 ^ 32` of a power of two, and the logarithm of 1 is 0. -/
structure LogsOk (L : Logs) : Prop where
  above : ∀ n k, Handled n → 2 ^ k * (2 ^ 32 + 1) ≤ n * 2 ^ 32 → k < L.ceil n
  below : ∀ n k, Handled n → 0 < n → n * 2 ^ 32 ≤ 2 ^ k * (2 ^ 32 - 1) → L.ceil n ≤ k
  one : L.ceil 1 = 0
  long : ∀ n, Handled n → 2 ^ 160 * (2 ^ 32 + 1) ≤ n * 2 ^ 32 → L.sha1 n = false
  short : ∀ n, 0 < n → n * 2 ^ 32 ≤ 2 ^ 160 * (2 ^ 32 - 1) → L.sha1 n = true

/-- Reading an attribute of a private key. -/
inductive KeyRead where
  | algorithm
  | bitSize
  | byteSize
  | hashAlgo
  deriving DecidableEq, Repr

/-- What an attribute answers. -/
inductive KeyAnswer where
  | text (s : String)
  | number (n : Nat)
  | raised (e : Raised)
  deriving DecidableEq, Repr

/-- Reading one attribute: the answer, and the object afterwards (when an exception is raised the algorithm has been looked up). -/
def readKey (L : Logs) (r : KeyRead) (k : PrivInfo) : KeyAnswer × PrivInfo :=
  match r with
  | .algorithm => (.text k.algorithm.1, k.algorithm.2)
  | .bitSize => match k.bitSize L with
    | .ok (n, k) => (.number n, k)
    | .error e => (.raised e, k.algorithm.2)
  | .byteSize => match k.byteSize L with
    | .ok (n, k) => (.number n, k)
    | .error e => (.raised e, k.algorithm.2)
  | .hashAlgo => match k.hashAlgo L with
    | .ok (s, k) => (.text s, k)
    | .error e => (.raised e, k.algorithm.2)

/-- Reading attributes one after the other. -/
def readKeys (L : Logs) : List KeyRead → PrivInfo → PrivInfo
  | [], k => k
  | r :: rs, k => readKeys L rs (readKey L r k).2

end Asn1.Spec
