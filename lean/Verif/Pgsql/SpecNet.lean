import Verif.Pgsql.Spec
/-
Texts of network addresses: RFC 4291, section 2.2, for IPv6, and how PostgreSQL writes inet, cidr,
macaddr and macaddr8. The texts are given by relations, as PostgreSQL writes some IPv6 addresses in
a mixed form that Go never uses. Nothing here is a model of code in /repo.
-/
namespace Verif.PgServer

open Verif

/-- The number that bytes stand for, the first being the most significant. -/
def ipNum : List UInt8 → Nat
  | [] => 0
  | b :: r => b.toNat * 256 ^ r.length + ipNum r

/-- Four decimal numbers. -/
def V4Text (t : Bytes) (bs : List UInt8) : Prop :=
  bs.length = 4 ∧ t = joinWith b!"." (bs.map fun b => Nat.toDigits 10 b.toNat)

def hexTable : List (Char × Nat) :=
  (b!"0123456789abcdefABCDEF").zip [0, 1, 2, 3, 4, 5, 6, 7, 8, 9, 10, 11, 12, 13, 14, 15, 10, 11, 12, 13, 14, 15]

/-- The value of hexadecimal digits read after the number `n`. -/
def hexFold (n : Nat) : Bytes → Option Nat
  | [] => some n
  | c :: r => (List.lookup c hexTable).bind fun d => hexFold (n * 16 + d) r

/-- One to four hexadecimal digits. -/
def HexWord (t : Bytes) (w : Nat) : Prop := t ≠ [] ∧ t.length ≤ 4 ∧ hexFold 0 t = some w

/-- Words in hexadecimal digits. -/
inductive HexWords : List Bytes → List Nat → Prop
  | nil : HexWords [] []
  | cons {t : Bytes} {w : Nat} {ts : List Bytes} {ws : List Nat} :
      HexWord t w → HexWords ts ws → HexWords (t :: ts) (w :: ws)

/-- Words in hexadecimal digits; the last two may be a dotted IPv4 address. -/
inductive MixedWords : List Bytes → List Nat → Prop
  | nil : MixedWords [] []
  | dotted {t : Bytes} {a b c d : UInt8} : V4Text t [a, b, c, d] →
      MixedWords [t] [a.toNat * 256 + b.toNat, c.toNat * 256 + d.toNat]
  | cons {t : Bytes} {w : Nat} {ts : List Bytes} {ws : List Nat} :
      HexWord t w → MixedWords ts ws → MixedWords (t :: ts) (w :: ws)

/-- Eight words with colons between them, or two colons in place of one or more zero words. -/
inductive V6Text : Bytes → List Nat → Prop
  | full {ts : List Bytes} {ws : List Nat} : MixedWords ts ws → ws.length = 8 → V6Text (joinWith b!":" ts) ws
  | short {l r : List Bytes} {a b : List Nat} : HexWords l a → MixedWords r b → a.length + b.length < 8 →
      V6Text (joinWith b!":" l ++ b!"::" ++ joinWith b!":" r)
        (a ++ List.replicate (8 - (a.length + b.length)) 0 ++ b)

/-- A text of an address of 4 or 16 bytes. -/
def AddrText (t : Bytes) (bs : List UInt8) : Prop :=
  V4Text t bs ∨ ∃ ws, V6Text t ws ∧ bs = ws.flatMap fun w => [UInt8.ofNat (w / 256), UInt8.ofNat (w % 256)]

/-- A value of type inet: an address and the length of the prefix. -/
structure Inet where
  addr : List UInt8
  bits : Nat

structure Inet.Valid (v : Inet) : Prop where
  size : v.addr.length = 4 ∨ v.addr.length = 16
  bits : v.bits ≤ 8 * v.addr.length

/-- A value of type cidr is one without bits to the right of the prefix. -/
def Inet.Network (v : Inet) : Prop := 2 ^ (8 * v.addr.length - v.bits) ∣ ipNum v.addr

/-- A text of an address and the length of the prefix. -/
def CidrText (t : Bytes) (v : Inet) : Prop := ∃ a, AddrText a v.addr ∧ t = a ++ '/' :: Nat.toDigits 10 v.bits

/-- inet is written without the length if the prefix is the whole address. -/
def InetText (t : Bytes) (v : Inet) : Prop :=
  if v.bits = 8 * v.addr.length then AddrText t v.addr else CidrText t v

/-- macaddr, macaddr8: the bytes in two hexadecimal digits each. -/
def macOut (bs : List UInt8) : Bytes :=
  joinWith b!":" (bs.map fun b => [Nat.digitChar (b.toNat / 16), Nat.digitChar (b.toNat % 16)])

end Verif.PgServer
