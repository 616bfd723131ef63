import Verif.Pgsql.Codecs
/-
Model of inet.go, inetarr.go, cidr.go, cidrarr.go, macaddr.go, macaddrarr.go (which macaddr8.go
and macaddr8arr.go use as well) of package `pgsql`, and of what they use of Go's package net
(version 1.23): `IP.String`, `IPNet.String`, `ParseIP`, `ParseCIDR`, `HardwareAddr.String`,
`ParseMAC`.

A `net.IP`, `net.IPMask` or `net.HardwareAddr` is a slice of bytes that may be nil. The scalar
scanners treat a source of any other type than []byte, string or nil like the empty text; this case
is not modelled.
-/
namespace Verif.Pgsql

open Verif

abbrev Raw := List UInt8

/-! ### Texts of addresses -/

/-- `ip[0:12]` of an IPv4 address in 16 bytes. -/
def v4Prefix : Raw := [0, 0, 0, 0, 0, 0, 0, 0, 0, 0, 255, 255]

/-- `IP.To4`: the four bytes of an IPv4 address. -/
def to4 (ip : Raw) : Option Raw :=
  if ip.length = 4 then some ip
  else if ip.length = 16 ∧ ip.take 12 = v4Prefix then some (ip.drop 12)
  else none

/-- Texts with a separator between them. -/
def sepBy (sep : Bytes) : List Bytes → Bytes
  | [] => []
  | [x] => x
  | x :: y :: r => x ++ sep ++ sepBy sep (y :: r)

/-- `netip.Addr.string4`. -/
def v4Text (ip : Raw) : Bytes := sepBy b!"." (ip.map fun b => Nat.toDigits 10 b.toNat)

/-- The 16 bit words of an address. -/
def words : Raw → List Nat
  | a :: b :: r => (a.toNat * 256 + b.toNat) :: words r
  | _ => []

/-- The number of zero words from index `i` on. -/
def zeroRun (ws : List Nat) (i : Nat) : Nat := ((ws.drop i).takeWhile (· = 0)).length

/-- One iteration of the first loop of `netip.Addr.appendTo6`: the first longest run of at least
two zero words, as start and length. -/
def betterRun (ws : List Nat) (best : Nat × Nat) (i : Nat) : Nat × Nat :=
  if zeroRun ws i ≥ 2 ∧ zeroRun ws i > best.2 then (i, zeroRun ws i) else best

def bestRun (ws : List Nat) : Nat × Nat := (List.range 8).foldl (betterRun ws) (255, 0)

/-- The second loop of `netip.Addr.appendTo6`, from index `i` on; `n` bounds the number of
iterations. -/
def v6Words (ws : List Nat) (z : Nat × Nat) : Nat → Nat → Bytes
  | 0, _ => []
  | n + 1, i =>
    if i ≥ 8 then []
    else if i = z.1 then
      if z.1 + z.2 ≥ 8 then b!"::"
      else b!"::" ++ Nat.toDigits 16 (ws.getD (z.1 + z.2) 0) ++ v6Words ws z n (z.1 + z.2 + 1)
    else (if i > 0 then b!":" else []) ++ Nat.toDigits 16 (ws.getD i 0) ++ v6Words ws z n (i + 1)

/-- `netip.Addr.string6`. -/
def v6Text (ip : Raw) : Bytes := v6Words (words ip) (bestRun (words ip)) 8 0

/-- `IP.String`. -/
def ipText (ip : Raw) : Bytes :=
  if ip.length = 0 then b!"<nil>"
  else if ip.length ≠ 4 ∧ ip.length ≠ 16 then '?' :: hexEncode ip
  else match to4 ip with
  | some p => v4Text p
  | none => v6Text ip

/-- The inner loop of `simpleMaskLength`: the leading ones, and what is left. -/
def leadOnes : Nat → Nat → Nat → Nat × Nat
  | 0, n, v => (n, v)
  | k + 1, n, v => if v ≥ 128 then leadOnes k (n + 1) (v * 2 % 256) else (n, v)

/-- `simpleMaskLength`; `none` is -1. -/
def maskLen (n : Nat) : Raw → Option Nat
  | [] => some n
  | b :: r =>
    if b = 255 then maskLen (n + 8) r
    else if (leadOnes 8 n b.toNat).2 = 0 ∧ r.all (· = 0) then some (leadOnes 8 n b.toNat).1
    else none

/-- `networkNumberAndMask`. -/
def netAndMask (ip mask : Raw) : Option (Raw × Raw) :=
  match (match to4 ip with
    | some p => some p
    | none => if ip.length ≠ 16 then none else some ip) with
  | none => none
  | some p =>
    if mask.length = 4 then (if p.length ≠ 4 then none else some (p, mask))
    else if mask.length = 16 then some (p, if p.length = 4 then mask.drop 12 else mask)
    else none

/-- `net.IPNet`. -/
structure IPNet where
  ip : Option Raw
  mask : Option Raw
deriving Repr, DecidableEq

/-- `IPNet.String`. -/
def IPNet.text (n : IPNet) : Bytes :=
  match netAndMask (n.ip.getD []) (n.mask.getD []) with
  | none => b!"<nil>"
  | some (p, m) =>
    match maskLen 0 m with
    | none => ipText p ++ b!"/" ++ hexEncode m
    | some l => ipText p ++ b!"/" ++ Nat.toDigits 10 l

/-! ### Parsing addresses -/

/-- `netip.parseIPv4Fields`: `fs` are the fields read so far, `val` the number being read, `len`
its number of digits. A dot is in the wrong place if no digit is before it or nothing behind it. -/
def v4Loop (fs : List Nat) (val len : Nat) : Bytes → Option (List Nat)
  | [] => if fs.length < 3 then none else some (fs ++ [val])
  | c :: r =>
    if isDig 10 c then
      if len = 1 ∧ val = 0 then none
      else if val * 10 + (c.toNat - 48) > 255 then none
      else v4Loop fs (val * 10 + (c.toNat - 48)) (len + 1) r
    else if c = '.' then
      if len = 0 ∨ r.length = 0 then none
      else if fs.length = 3 then none
      else v4Loop (fs ++ [val]) 0 0 r
    else none

def parseV4 (s : Bytes) : Option (List Nat) := v4Loop [] 0 0 s

def isHex (c : Char) : Bool := (fromHex c).isSome

def hexNum (s : Bytes) : Nat := s.foldl (fun n c => n * 16 + (fromHex c).getD 0) 0

/-- What `netip.parseIPv6` does with a word after its digits: `gs` are the words including this
one, `r` is what follows, `rec` the next iteration. -/
def v6Next (gs : List Nat) (el : Option Nat) (r : Bytes)
    (rec : Option Nat → Bytes → Option (List Nat × Option Nat × Bytes)) :
    Option (List Nat × Option Nat × Bytes) :=
  match r with
  | [] => some (gs, el, [])
  | ':' :: ':' :: r' =>
    if el.isSome then none
    else if r'.length = 0 then some (gs, some gs.length, [])
    else rec (some gs.length) r'
  | ':' :: c :: r' => rec el (c :: r')
  | _ => none

/-- The two words of a dotted address at the end. -/
def v4Words (f : List Nat) : List Nat := [f.getD 0 0 * 256 + f.getD 1 0, f.getD 2 0 * 256 + f.getD 3 0]

/-- The loop of `netip.parseIPv6`: the words read, the index of the ellipsis, what is left to read.
The first argument bounds the number of words. -/
def v6Loop : Nat → List Nat → Option Nat → Bytes → Option (List Nat × Option Nat × Bytes)
  | 0, gs, el, s => some (gs, el, s)
  | k + 1, gs, el, s =>
    if (s.takeWhile isHex).length = 0 ∨ (s.takeWhile isHex).length > 4 then none
    else if (s.dropWhile isHex).head? = some '.' then
      if (el.isNone ∧ gs.length ≠ 6) ∨ gs.length > 6 then none
      else (parseV4 s).map fun f => (gs ++ v4Words f, el, [])
    else v6Next (gs ++ [hexNum (s.takeWhile isHex)]) el (s.dropWhile isHex)
      (v6Loop k (gs ++ [hexNum (s.takeWhile isHex)]))

/-- The end of `netip.parseIPv6`: everything must be read; the ellipsis is expanded. -/
def v6End (gs : List Nat) (el : Option Nat) (s : Bytes) : Option (List Nat) :=
  if s.length ≠ 0 then none
  else if gs.length < 8 then
    el.map fun e => gs.take e ++ List.replicate (8 - gs.length) 0 ++ gs.drop e
  else if el.isSome then none else some gs

/-- `netip.parseIPv6`. (A zone is an error for `ParseIP` and `ParseCIDR`, like any other text with
a percent sign.) -/
def parseV6 (s : Bytes) : Option (List Nat) :=
  if s.take 2 = b!"::" then
    if s.length = 2 then some (List.replicate 8 0)
    else (v6Loop 8 [] (some 0) (s.drop 2)).bind fun p => v6End p.1 p.2.1 p.2.2
  else (v6Loop 8 [] none s).bind fun p => v6End p.1 p.2.1 p.2.2

def wordBytes (ws : List Nat) : Raw := ws.flatMap fun w => [UInt8.ofNat (w / 256), UInt8.ofNat (w % 256)]

/-- `netip.ParseAddr`: four bytes for a dotted address, sixteen otherwise. -/
def parseAddr (s : Bytes) : Option Raw :=
  match s.find? fun c => c = '.' ∨ c = ':' with
  | some '.' => (parseV4 s).map (·.map UInt8.ofNat)
  | some ':' => (parseV6 s).map wordBytes
  | _ => none

/-- `netip.Addr.As16`. -/
def as16 (a : Raw) : Raw := if a.length = 4 then v4Prefix ++ a else a

/-- `net.ParseIP`; `none` is the nil IP. -/
def parseIP (s : Bytes) : Option Raw := (parseAddr s).map as16

/-- `net.CIDRMask(n, 8*len)`. -/
def cidrMask : Nat → Nat → Raw
  | 0, _ => []
  | len + 1, n =>
    if n ≥ 8 then 255 :: cidrMask len (n - 8) else UInt8.ofNat (256 - 2 ^ (8 - n)) :: cidrMask len 0

/-- `net.dtoi` of a text without any other characters than digits. -/
def dtoi (s : Bytes) : Option Nat :=
  if s.length = 0 ∨ ¬s.all (isDig 10) then none
  else some (Nat.ofDigitChars 10 s 0)

/-- `net.ParseCIDR`: the network. (`IP.Mask` is applied to the address in the length of the
mask.) -/
def parseCIDR (s : Bytes) : SR IPNet :=
  if '/' ∈ s then
    match parseAddr (s.takeWhile (· ≠ '/')), dtoi ((s.dropWhile (· ≠ '/')).drop 1) with
    | some a, some n =>
      if n > 8 * a.length then .err .net
      else .ok { ip := some (List.zipWith (· &&& ·) a (cidrMask a.length n)), mask := some (cidrMask a.length n) }
    | _, _ => .err .net
  else .err .net

/-! ### inet and inet[] (pgsql/inet.go, pgsql/inetarr.go) -/

/-- `inetFromIPNet.Value` (inet.go:33-38). -/
def inetFromNet (n : IPNet) : Option Bytes := if n.ip.isNone ∧ n.mask.isNone then none else some n.text

/-- inet.go:55-59, inetarr.go:67-71: whatever is no network is taken for an address without a
mask; no error is returned. -/
def inetElem (s : Bytes) : SR IPNet :=
  match parseCIDR s with
  | .ok n => .ok n
  | _ => .ok { ip := parseIP s, mask := none }

/-- `inetToIPNet.Scan` (inet.go:44-61). -/
def inetToNet : IPNet → Option Bytes → SR IPNet := scanKeep inetElem

/-- `inetFromIP.Value` (inet.go:67-72). -/
def inetFromIP (ip : Option Raw) : Option Bytes := ip.map ipText

/-- `inetToIP.Scan` (inet.go:78-91). -/
def inetToIP : Option Raw → Option Bytes → SR (Option Raw) := scanKeep fun b => .ok (parseIP b)

/-- `inetArrayFromIPNetSlice.Value` (inetarr.go:33-49), `cidrArrayFromIPNetSlice.Value`
(cidrarr.go:23-39). -/
def netArrValue : Option (List IPNet) → Option Bytes := arrValue IPNet.text

/-- `inetArrayToIPNetSlice.Scan` (inetarr.go:55-76). -/
def inetArrToNets : Option (List IPNet) → Option Bytes → SR (Option (List IPNet)) :=
  scanReset fun b => (ofParse (parseCommaArray b)).bind (mapRes inetElem)

/-- `inetArrayFromIPSlice.Value` (inetarr.go:82-98). -/
def ipArrValue : Option (List (Option Raw)) → Option Bytes := arrValue fun ip => ipText (ip.getD [])

/-- `inetArrayToIPSlice.Scan` (inetarr.go:104-121). -/
def inetArrToIPs : Option (List (Option Raw)) → Option Bytes → SR (Option (List (Option Raw))) :=
  scanReset fun b => (ofParse (parseCommaArray b)).map (·.map parseIP)

/-! ### cidr and cidr[] (pgsql/cidr.go, pgsql/cidrarr.go) -/

/-- `cidrFromIPNet.Value` (cidr.go:23-29). -/
def cidrFromNet (n : IPNet) : Option Bytes :=
  if (n.ip.getD []).length = 0 ∧ (n.mask.getD []).length = 0 then none else some n.text

/-- `cidrToIPNet.Scan` (cidr.go:35-52). -/
def cidrToNet : IPNet → Option Bytes → SR IPNet := scanKeep parseCIDR

/-- `cidrArrayToIPNetSlice.Scan` (cidrarr.go:45-66). -/
def cidrArrToNets : Option (List IPNet) → Option Bytes → SR (Option (List IPNet)) :=
  scanReset fun b => (ofParse (parseCommaArray b)).bind (mapRes parseCIDR)

/-! ### macaddr, macaddr8 and their arrays -/

/-- `HardwareAddr.String`. -/
def macText (m : Raw) : Bytes := sepBy b!":" (m.map fun b => hexEncode [b])

/-- `net.xtoi2(s, e)`: two digits, followed by `e` or nothing. -/
def xtoi2 (s : Bytes) (e : Char) : Option UInt8 :=
  match s with
  | a :: b :: r =>
    if r.length > 0 ∧ r.head? ≠ some e then none
    else match fromHex a, fromHex b with
    | some x, some y => some (UInt8.ofNat (x * 16 + y))
    | _, _ => none
  | _ => none

/-- The loop of `net.ParseMAC` for bytes separated by `e`. -/
def macLoop (e : Char) : Nat → Bytes → Option Raw
  | 0, _ => some []
  | n + 1, s => (xtoi2 s e).bind fun b => (macLoop e n (s.drop 3)).map (b :: ·)

/-- The loop of `net.ParseMAC` for pairs of bytes separated by dots. -/
def macLoop2 : Nat → Bytes → Option Raw
  | 0, _ => some []
  | n + 1, s => (xtoi2 (s.take 2) '\x00').bind fun a => (xtoi2 (s.drop 2) '.').bind fun b =>
      (macLoop2 n (s.drop 5)).map (a :: b :: ·)

/-- `net.ParseMAC`. -/
def parseMAC (s : Bytes) : SR Raw :=
  if s.length < 14 then .err .net
  else if s[2]? = some ':' ∨ s[2]? = some '-' then
    if (s.length + 1) % 3 ≠ 0 then .err .net
    else if (s.length + 1) / 3 ≠ 6 ∧ (s.length + 1) / 3 ≠ 8 ∧ (s.length + 1) / 3 ≠ 20 then .err .net
    else match macLoop (s.getD 2 ':') ((s.length + 1) / 3) s with
    | some m => .ok m
    | none => .err .net
  else if s[4]? = some '.' then
    if (s.length + 1) % 5 ≠ 0 then .err .net
    else if 2 * (s.length + 1) / 5 ≠ 6 ∧ 2 * (s.length + 1) / 5 ≠ 8 ∧ 2 * (s.length + 1) / 5 ≠ 20 then .err .net
    else match macLoop2 ((s.length + 1) / 5) s with
    | some m => .ok m
    | none => .err .net
  else .err .net

/-- `macAddrFromHardwareAddr.Value` (macaddr.go:23-28), used by macaddr8.go as well. -/
def macValue (m : Option Raw) : Option Bytes := m.map macText

/-- `macAddrToHardwareAddr.Scan` (macaddr.go:34-52). -/
def macScan : Option Raw → Option Bytes → SR (Option Raw) := scanKeep fun b => (parseMAC b).map some

/-- `macAddrArrayFromHardwareAddrSlice.Value` (macaddrarr.go:23-39). -/
def macArrValue : Option (List (Option Raw)) → Option Bytes := arrValue fun m => macText (m.getD [])

/-- `macAddrArrayToHardwareAddrSlice.Scan` (macaddrarr.go:45-64). -/
def macArrScan : Option (List (Option Raw)) → Option Bytes → SR (Option (List (Option Raw))) :=
  scanReset fun b => (ofParse (parseCommaArray b)).bind (mapRes fun e => (parseMAC e).map some)

end Verif.Pgsql
