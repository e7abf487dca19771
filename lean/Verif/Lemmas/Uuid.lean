import Verif.Model.Uuid

namespace Verif.Uuid

/-- The digits `binascii` knows. -/
def hexChars : Str := c!"0123456789abcdefABCDEF"

theorem hexVal_of_mem {c : Char} (h : c ∈ hexChars) :
    ∃ v, hexVal? c = some v ∧ hexDigit v = c.toLower := by
  have : ∀ c ∈ hexChars, ∃ v, hexVal? c = some v ∧ hexDigit v = c.toLower := by
    intro c hc
    simp only [hexChars, List.mem_cons, List.not_mem_nil, or_false] at hc
    rcases hc with h|h|h|h|h|h|h|h|h|h|h|h|h|h|h|h|h|h|h|h|h|h <;> subst h <;>
      exact ⟨_, rfl, by decide⟩
  exact this c h

theorem mem_of_hexVal {c : Char} {v : BitVec 4} (h : hexVal? c = some v) : c ∈ hexChars := by
  have key : ∀ n, (48 ≤ n ∧ n ≤ 57) ∨ (97 ≤ n ∧ n ≤ 102) ∨ (65 ≤ n ∧ n ≤ 70) →
      Char.ofNat n ∈ hexChars := by
    intro n hn
    have : n = 48 ∨ n = 49 ∨ n = 50 ∨ n = 51 ∨ n = 52 ∨ n = 53 ∨ n = 54 ∨ n = 55 ∨ n = 56 ∨
      n = 57 ∨ n = 97 ∨ n = 98 ∨ n = 99 ∨ n = 100 ∨ n = 101 ∨ n = 102 ∨ n = 65 ∨ n = 66 ∨
      n = 67 ∨ n = 68 ∨ n = 69 ∨ n = 70 := by omega
    rcases this with h|h|h|h|h|h|h|h|h|h|h|h|h|h|h|h|h|h|h|h|h|h <;> subst h <;> decide
  rw [← Char.ofNat_toNat c]
  apply key
  unfold hexVal? at h
  simp only at h
  split at h
  · omega
  · split at h
    · omega
    · split at h
      · omega
      · cases h

theorem hexVal_isSome {c : Char} : (hexVal? c).isSome ↔ c ∈ hexChars := by
  constructor
  · intro h
    obtain ⟨v, hv⟩ := Option.isSome_iff_exists.1 h
    exact mem_of_hexVal hv
  · intro h
    obtain ⟨v, hv, _⟩ := hexVal_of_mem h
    simp [hv]

theorem hexVal_none {c : Char} (h : c ∉ hexChars) : hexVal? c = none := by
  cases hc : hexVal? c with
  | none => rfl
  | some v => exact absurd (mem_of_hexVal hc) h

theorem hexVal_hexDigit (v : BitVec 4) : hexVal? (hexDigit v) = some v := by
  have : ∀ f : Fin 16, hexVal? (hexDigit (BitVec.ofFin f)) = some (BitVec.ofFin f) := by decide
  exact this v.toFin

theorem hexDigit_mem (v : BitVec 4) : hexDigit v ∈ c!"0123456789abcdef" := by
  have : ∀ f : Fin 16, hexDigit (BitVec.ofFin f) ∈ c!"0123456789abcdef" := by decide
  exact this v.toFin

theorem hyphen_not_hex : '-' ∉ hexChars := by decide

theorem ne_hyphen {c : Char} (h : c ∈ hexChars) : c ≠ '-' := by
  intro e; subst e; exact hyphen_not_hex h

theorem lower_mem_hexChars {c : Char} (h : c ∈ c!"0123456789abcdef") : c ∈ hexChars := by
  revert c; decide

theorem toLower_toLower {c : Char} (h : c ∈ hexChars) : c.toLower.toLower = c.toLower := by
  revert c; decide

theorem toLower_of_lower {c : Char} (h : c ∈ c!"0123456789abcdef") : c.toLower = c := by
  revert c; decide

/-! ### hexlify / unhexlify -/

theorem hexlify_length (bs : List Byte) : (hexlify bs).length = 2 * bs.length := by
  induction bs with
  | nil => rfl
  | cons b bs ih => simp [hexlify, ih]; omega

theorem hexlify_lower (bs : List Byte) : ∀ c ∈ hexlify bs, c ∈ c!"0123456789abcdef" := by
  induction bs with
  | nil => simp [hexlify]
  | cons b bs ih =>
    intro c hc
    rw [hexlify, List.mem_cons, List.mem_cons] at hc
    rcases hc with rfl | rfl | hc
    · exact hexDigit_mem _
    · exact hexDigit_mem _
    · exact ih c hc

theorem unhexlify_hexlify (bs : List Byte) : unhexlify (hexlify bs) = .ok bs := by
  induction bs with
  | nil => rfl
  | cons b bs ih =>
    simp only [hexlify, unhexlify, hexVal_hexDigit, ih]
    have : (b.extractLsb' 4 4 ++ b.extractLsb' 0 4 : BitVec 8) = b := by
      apply BitVec.eq_of_getLsbD_eq
      intro i hi
      rw [BitVec.getLsbD_append]
      split
      · simp; omega
      · rw [BitVec.getLsbD_extractLsb', show 4 + (i - 4) = i by omega]
        simp; omega
    rw [this]

theorem unhexlify_ok {s : Str} (hs : ∀ c ∈ s, c ∈ hexChars) {k : Nat} (hk : s.length = 2 * k) :
    ∃ bs, unhexlify s = .ok bs ∧ hexlify bs = s.map Char.toLower ∧ bs.length = k := by
  induction k generalizing s with
  | zero =>
    have : s = [] := List.eq_nil_of_length_eq_zero (by omega)
    subst this
    exact ⟨[], rfl, rfl, rfl⟩
  | succ k ih =>
    match s, hk with
    | a :: b :: s, hk =>
      obtain ⟨x, hx, hx'⟩ := hexVal_of_mem (hs a (by simp))
      obtain ⟨y, hy, hy'⟩ := hexVal_of_mem (hs b (by simp))
      obtain ⟨bs, h1, h2, h3⟩ := ih (s := s) (fun c hc => hs c (by simp [hc])) (by simp at hk; omega)
      refine ⟨(x ++ y : BitVec 8) :: bs, by simp [unhexlify, hx, hy, h1], ?_, by simp [h3]⟩
      have hxy : (x ++ y : BitVec 8).extractLsb' 4 4 = x := by
        have : ∀ f g : Fin 16,
            (BitVec.ofFin (w := 4) f ++ BitVec.ofFin (w := 4) g : BitVec 8).extractLsb' 4 4 =
              BitVec.ofFin f := by decide
        exact this x.toFin y.toFin
      have hxy' : (x ++ y : BitVec 8).extractLsb' 0 4 = y := by
        have : ∀ f g : Fin 16,
            (BitVec.ofFin (w := 4) f ++ BitVec.ofFin (w := 4) g : BitVec 8).extractLsb' 0 4 =
              BitVec.ofFin g := by decide
        exact this x.toFin y.toFin
      simp only [hexlify, hxy, hxy', hx', hy', h2, List.map_cons]

/-- Whatever `unhexlify` accepts is hexadecimal and of even length. -/
theorem unhexlify_inv {s : Str} {bs : List Byte} (h : unhexlify s = .ok bs) :
    (∀ c ∈ s, c ∈ hexChars) ∧ s.length = 2 * bs.length := by
  induction bs generalizing s with
  | nil =>
    match s, h with
    | [], _ => simp
    | a :: b :: s, h =>
      simp only [unhexlify] at h
      split at h
      · split at h <;> cases h
      · cases h
  | cons x bs ih =>
    match s, h with
    | a :: b :: s, h =>
      simp only [unhexlify] at h
      split at h
      · rename_i x' y' hx hy
        split at h
        · rename_i bs' hb
          cases h
          obtain ⟨h1, h2⟩ := ih hb
          refine ⟨?_, by simp; omega⟩
          intro c hc
          simp only [List.mem_cons] at hc
          rcases hc with rfl | rfl | hc
          · exact mem_of_hexVal hx
          · exact mem_of_hexVal hy
          · exact h1 c hc
        · cases h
      · cases h

theorem unhexlify_append {s t : Str} {bs cs : List Byte} (hs : unhexlify s = .ok bs)
    (ht : unhexlify t = .ok cs) : unhexlify (s ++ t) = .ok (bs ++ cs) := by
  induction bs generalizing s with
  | nil =>
    have := (unhexlify_inv hs).2
    have : s = [] := List.eq_nil_of_length_eq_zero (by simpa using this)
    subst this; simpa using ht
  | cons x bs ih =>
    match s, hs with
    | a :: b :: s, hs =>
      simp only [unhexlify] at hs
      simp only [List.cons_append, unhexlify]
      split at hs
      · rename_i x' y' hx hy
        split at hs
        · rename_i bs' hb
          cases hs
          simp [ih hb]
        · cases hs
      · cases hs

/-! ### CFB -/

variable (E : BlockFn) (key : List Byte)

theorem cfbEncrypt_length (reg ps : List Byte) : (cfbEncrypt E key reg ps).length = ps.length := by
  induction ps generalizing reg with
  | nil => rfl
  | cons p ps ih => simp [cfbEncrypt, ih]

theorem cfbDecrypt_length (reg ps : List Byte) : (cfbDecrypt E key reg ps).length = ps.length := by
  induction ps generalizing reg with
  | nil => rfl
  | cons p ps ih => simp [cfbDecrypt, ih]

theorem xor_xor_cancel (a b : Byte) : a ^^^ b ^^^ b = a := by
  rw [BitVec.xor_assoc, BitVec.xor_self, BitVec.xor_zero]

theorem cfbDecrypt_encrypt (reg ps : List Byte) :
    cfbDecrypt E key reg (cfbEncrypt E key reg ps) = ps := by
  induction ps generalizing reg with
  | nil => rfl
  | cons p ps ih => simp only [cfbEncrypt, cfbDecrypt, ih, xor_xor_cancel]

theorem cfbEncrypt_decrypt (reg cs : List Byte) :
    cfbEncrypt E key reg (cfbDecrypt E key reg cs) = cs := by
  induction cs generalizing reg with
  | nil => rfl
  | cons p ps ih => simp only [cfbEncrypt, cfbDecrypt, xor_xor_cancel, ih]

theorem cfbEncrypt_take (reg ps qs : List Byte) :
    (cfbEncrypt E key reg (ps ++ qs)).take ps.length = cfbEncrypt E key reg ps := by
  induction ps generalizing reg with
  | nil => simp [cfbEncrypt]
  | cons p ps ih => simp [cfbEncrypt, ih]

theorem cfbDecrypt_take (reg ps qs : List Byte) :
    (cfbDecrypt E key reg (ps ++ qs)).take ps.length = cfbDecrypt E key reg ps := by
  induction ps generalizing reg with
  | nil => simp [cfbDecrypt]
  | cons p ps ih => simp [cfbDecrypt, ih]

theorem hexlify_take (bs : List Byte) (k : Nat) : (hexlify bs).take (2 * k) = hexlify (bs.take k) := by
  induction bs generalizing k with
  | nil => simp [hexlify]
  | cons b bs ih =>
    cases k with
    | zero => simp [hexlify]
    | succ k =>
      rw [show 2 * (k + 1) = 2 * k + 1 + 1 by omega]
      simp [hexlify, ih]

end Verif.Uuid

namespace Verif.Uuid

/-- What the cipher call does for a direction. -/
def crypt (E : BlockFn) (key : List Byte) (enc : Bool) (d : List Byte) : List Byte :=
  if enc then cfbEncrypt E key key.reverse d else cfbDecrypt E key key.reverse d

def dirName (enc : Bool) : String := if enc then "flow_conversion_1" else "flow_conversion_2"

theorem crypt_crypt (E : BlockFn) (key : List Byte) (enc : Bool) (d : List Byte) :
    crypt E key (!enc) (crypt E key enc d) = d := by
  cases enc
  · simp [crypt, cfbEncrypt_decrypt]
  · simp [crypt, cfbDecrypt_encrypt]

theorem crypt_length (E : BlockFn) (key : List Byte) (enc : Bool) (d : List Byte) :
    (crypt E key enc d).length = d.length := by
  cases enc <;> simp [crypt, cfbEncrypt_length, cfbDecrypt_length]

theorem crypt_take (E : BlockFn) (key : List Byte) (enc : Bool) (p q : List Byte) :
    (crypt E key enc (p ++ q)).take p.length = crypt E key enc p := by
  cases enc <;> simp only [crypt, Bool.false_eq_true, if_false, if_true, cfbEncrypt_take, cfbDecrypt_take]

/-- Shape of `uuid_from_uuid` once the digits have been read. -/
theorem uuidFromUuid_eq (E : BlockFn) (u : Str) (key : List Byte) (hk : key.length = 16)
    (enc : Bool) :
    uuidFromUuid E u key (dirName enc) =
      match (u.filter (· ≠ '-'))[12]?, (u.filter (· ≠ '-'))[16]? with
      | some x, some y =>
        match unhexlify (dropDigits (u.filter (· ≠ '-'))) with
        | .ok d => .ok (layout x y (hexlify (crypt E key enc d)))
        | .error e => .error e
      | _, _ => .error .indexError := by
  have hp : aesParamsOk key key.reverse = true := by simp [aesParamsOk, hk]
  unfold uuidFromUuid
  simp only [hp, if_true]
  cases h12 : (u.filter (· ≠ '-'))[12]? with
  | none => simp
  | some x =>
    cases h16 : (u.filter (· ≠ '-'))[16]? with
    | none => simp
    | some y =>
      simp only []
      cases hd : unhexlify _ with
      | error e => rfl
      | ok d => cases enc <;> simp [dirName, crypt]

theorem filter_hyphen {s : Str} (h : ∀ c ∈ s, c ≠ '-') : s.filter (· ≠ '-') = s := by
  apply List.filter_eq_self.2
  intro c hc; simp [h c hc]

/-- Conversion of a text made of hexadecimal groups, with anything after the 32 digits. -/
theorem conv_groups (E : BlockFn) (key : List Byte) (hk : key.length = 16) (enc : Bool)
    (u a b c d e : Str) (x y : Char)
    (ha : a.length = 8) (hb : b.length = 4) (hc : c.length = 3) (_hd : d.length = 3)
    (hu : u.filter (· ≠ '-') = a ++ b ++ x :: (c ++ y :: (d ++ e))) :
    uuidFromUuid E u key (dirName enc) =
      match unhexlify (a ++ b ++ c ++ d ++ e) with
      | .ok bs => .ok (layout x y (hexlify (crypt E key enc bs)))
      | .error e => .error e := by
  rw [uuidFromUuid_eq E u key hk enc, hu]
  have h12 : (a ++ b ++ x :: (c ++ y :: (d ++ e)))[12]? = some x := by
    rw [List.getElem?_append_right (by simp; omega)]
    simp [ha, hb]
  have h16 : (a ++ b ++ x :: (c ++ y :: (d ++ e)))[16]? = some y := by
    rw [List.getElem?_append_right (by simp; omega)]
    simp [ha, hb, hc]
  have hrem : ((a ++ b ++ x :: (c ++ y :: (d ++ e))).take 12 ++
      (a ++ b ++ x :: (c ++ y :: (d ++ e))).drop 13) = a ++ b ++ (c ++ y :: (d ++ e)) := by
    have e1 : (a ++ b ++ x :: (c ++ y :: (d ++ e))).take 12 = a ++ b :=
      List.take_left' (by simp; omega)
    have e2 : (a ++ b ++ x :: (c ++ y :: (d ++ e))).drop 13 = c ++ y :: (d ++ e) := by
      rw [show a ++ b ++ x :: (c ++ y :: (d ++ e)) = (a ++ b ++ [x]) ++ (c ++ y :: (d ++ e)) by simp]
      exact List.drop_left' (by simp; omega)
    rw [e1, e2]
  have hrem2 : ((a ++ b ++ (c ++ y :: (d ++ e))).take 15 ++
      (a ++ b ++ (c ++ y :: (d ++ e))).drop 16) = a ++ b ++ c ++ d ++ e := by
    have e1 : (a ++ b ++ (c ++ y :: (d ++ e))).take 15 = a ++ b ++ c := by
      rw [show a ++ b ++ (c ++ y :: (d ++ e)) = (a ++ b ++ c) ++ (y :: (d ++ e)) by simp]
      exact List.take_left' (by simp; omega)
    have e2 : (a ++ b ++ (c ++ y :: (d ++ e))).drop 16 = d ++ e := by
      rw [show a ++ b ++ (c ++ y :: (d ++ e)) = (a ++ b ++ c ++ [y]) ++ (d ++ e) by simp]
      exact List.drop_left' (by simp; omega)
    rw [e1, e2]; simp
  rw [h12, h16]
  simp only [dropDigits, hrem, hrem2]

end Verif.Uuid
