/-
UUID conversion between EcoSpold 2 and ILCD identifiers.
Models src/Lavoisier/conversions/utils.py:19-35 (`uuid_from_uuid`).

The AES block function is a parameter: `E key block` is the first byte of the AES encryption
of `block` (16 bytes) under `key`. Nothing is assumed about it. The CFB mode with its default
8-bit segments is modelled byte by byte as in the documentation of the `Crypto.Cipher` library.
-/
import Verif.Py

namespace Verif.Uuid

abbrev Byte := BitVec 8

/-- First byte of the block encryption under a key; external (`Crypto.Cipher.AES`). -/
abbrev BlockFn := List Byte → List Byte → Byte

/-- Value of a hexadecimal digit, both cases (`binascii.unhexlify`). -/
def hexVal? (c : Char) : Option (BitVec 4) :=
  let n := c.toNat
  if 48 ≤ n ∧ n ≤ 57 then some (BitVec.ofNat 4 (n - 48))
  else if 97 ≤ n ∧ n ≤ 102 then some (BitVec.ofNat 4 (n - 87))
  else if 65 ≤ n ∧ n ≤ 70 then some (BitVec.ofNat 4 (n - 55))
  else none

/-- Lower-case hexadecimal digit of a nibble (`binascii.hexlify`). -/
def hexDigit (v : BitVec 4) : Char :=
  if v.toNat < 10 then Char.ofNat (48 + v.toNat) else Char.ofNat (87 + v.toNat)

/-- `binascii.unhexlify`: ValueError (binascii.Error) on odd length or a non-hex character. -/
def unhexlify : Str → Py (List Byte)
  | [] => .ok []
  | [_] => .error .valueError
  | a :: b :: s =>
    match hexVal? a, hexVal? b with
    | some x, some y =>
      match unhexlify s with
      | .ok bs => .ok ((x ++ y : BitVec 8) :: bs)
      | .error e => .error e
    | _, _ => .error .valueError

/-- `binascii.hexlify(...).decode()` -/
def hexlify : List Byte → Str
  | [] => []
  | b :: bs => hexDigit (b.extractLsb' 4 4) :: hexDigit (b.extractLsb' 0 4) :: hexlify bs

/-- `AES.new(key, MODE_CFB, iv).encrypt(d)`: CFB with 8-bit segments. `reg` is the shift
register, initially the initialisation vector. -/
def cfbEncrypt (E : BlockFn) (key : List Byte) : List Byte → List Byte → List Byte
  | _, [] => []
  | reg, p :: ps =>
    let c := p ^^^ E key reg
    c :: cfbEncrypt E key (reg.drop 1 ++ [c]) ps

/-- `AES.new(key, MODE_CFB, iv).decrypt(d)`. -/
def cfbDecrypt (E : BlockFn) (key : List Byte) : List Byte → List Byte → List Byte
  | _, [] => []
  | reg, c :: cs => (c ^^^ E key reg) :: cfbDecrypt E key (reg.drop 1 ++ [c]) cs

/-- `AES.new` checks (ValueError): key of 16, 24 or 32 bytes, initialisation vector of 16. -/
def aesParamsOk (key iv : List Byte) : Bool :=
  (key.length == 16 || key.length == 24 || key.length == 32) && iv.length == 16

/-- The digits without the 13th and the 17th, conversions/utils.py:26-27. -/
def dropDigits (u0 : Str) : Str :=
  let u1 := u0.take 12 ++ u0.drop 13                       -- :26
  u1.take 15 ++ u1.drop 16                                 -- :27

/-- The text put together at conversions/utils.py:34 from the two digits kept and the new ones. -/
def layout (u12 u16 : Char) (n : Str) : Str :=
  n.take 8 ++ c!"-" ++ (n.drop 8).take 4 ++ c!"-" ++ [u12] ++ (n.drop 12).take 3
    ++ c!"-" ++ [u16] ++ (n.drop 15).take 3 ++ c!"-" ++ (n.drop 18).take 12

/-- `uuid_from_uuid(u, key, type_)`, conversions/utils.py:19-35. -/
def uuidFromUuid (E : BlockFn) (u : Str) (key : List Byte) (type_ : String) : Py Str :=
  let iv := key.reverse                                    -- :21
  let u0 := u.filter (· ≠ '-')                             -- :23  u.replace("-", "")
  match u0[12]? with                                       -- :24  IndexError when too short
  | none => .error .indexError
  | some u12 =>
    match u0[16]? with                                     -- :25
    | none => .error .indexError
    | some u16 =>
      match unhexlify (dropDigits u0) with                 -- :26-28
      | .error e => .error e
      | .ok d =>
        if aesParamsOk key iv then                         -- :29
          let enc : Py (List Byte) :=
            if type_ = "flow_conversion_1" then .ok (cfbEncrypt E key iv d)        -- :30-31
            else if type_ = "flow_conversion_2" then .ok (cfbDecrypt E key iv d)   -- :32-33
            else .error .nameError                                                 -- new_u unbound
          match enc with
          | .error e => .error e
          | .ok r =>
            .ok (layout u12 u16 (hexlify r))                                       -- :34
        else .error .valueError

/-- The key used by both field mappings (ECS2_to_ILCD1_conversion.py:1810, 1828 and
ILCD1_to_ECS2_conversion.py:889, 937, 969, 1241, 1264): `b'\__Lav_IL1EC2__/'`. -/
def lavKey : List Byte := (c!"\\__Lav_IL1EC2__/").map (fun c => BitVec.ofNat 8 c.toNat)

/-- EcoSpold 2 identifier to ILCD identifier: `_uuid_conv_spec` of ECS2_to_ILCD1_conversion.py:1810. -/
def ecsToIlcd (E : BlockFn) (u : Str) : Py Str := uuidFromUuid E u lavKey "flow_conversion_1"

/-- ILCD identifier to EcoSpold 2 identifier: `_uuid_conv_spec` of ILCD1_to_ECS2_conversion.py:1241. -/
def ilcdToEcs (E : BlockFn) (u : Str) : Py Str := uuidFromUuid E u lavKey "flow_conversion_2"

end Verif.Uuid
