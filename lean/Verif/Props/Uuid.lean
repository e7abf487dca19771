/-
Properties C01-C04: identifiers survive the conversion between the two formats.
-/
import Verif.Lemmas.Uuid

namespace Verif.Uuid

/-! ### Specification -/

/-- A hexadecimal digit. -/
def IsHex (c : Char) : Prop := c ∈ "0123456789abcdefABCDEF".toList

/-- A lower-case hexadecimal digit. -/
def IsLowerHex (c : Char) : Prop := c ∈ "0123456789abcdef".toList

/-- The textual form of a UUID: five groups of 8, 4, 4, 4 and 12 characters of the class `D`
separated by hyphens. -/
def UuidForm (D : Char → Prop) (u : Str) : Prop :=
  ∃ a b c d e : Str, a.length = 8 ∧ b.length = 4 ∧ c.length = 4 ∧ d.length = 4 ∧ e.length = 12 ∧
    (∀ x ∈ a ++ b ++ c ++ d ++ e, D x) ∧
    u = a ++ ['-'] ++ b ++ ['-'] ++ c ++ ['-'] ++ d ++ ['-'] ++ e

/-- A UUID in either case, and one written in lower case. -/
abbrev IsUuid := UuidForm IsHex
abbrev IsLowerUuid := UuidForm IsLowerHex

/-- `u` in lower case. -/
def lower (u : Str) : Str := u.map Char.toLower

/-- The version digit (13th hexadecimal digit) and the variant digit (17th) of a UUID text. -/
def versionDigit (u : Str) : Option Char := u[14]?
def variantDigit (u : Str) : Option Char := u[19]?

/-! ### Auxiliary facts linking the specification with the lemmas -/

theorem isHex_iff {c : Char} : IsHex c ↔ c ∈ hexChars := Iff.rfl

private theorem hex_groups {u a b c d e : Str} (hx : ∀ x ∈ a ++ b ++ c ++ d ++ e, IsHex x)
    (hu : u = a ++ ['-'] ++ b ++ ['-'] ++ c ++ ['-'] ++ d ++ ['-'] ++ e) :
    u.filter (· ≠ '-') = a ++ b ++ c ++ d ++ e := by
  subst hu
  have f : ∀ s : Str, (∀ x ∈ s, x ∈ a ++ b ++ c ++ d ++ e) → s.filter (· ≠ '-') = s := by
    intro s hs
    exact filter_hyphen (fun x h => ne_hyphen (hx x (hs x h)))
  have g : (['-'] : Str).filter (· ≠ '-') = [] := by decide
  simp only [List.filter_append, g, List.append_nil]
  rw [f a (by intro x h; simp [h]), f b (by intro x h; simp [h]), f c (by intro x h; simp [h]),
    f d (by intro x h; simp [h]), f e (by intro x h; simp [h])]

/-- Conversion of a well-formed UUID: what is written. -/
private theorem conv_uuid (E : BlockFn) (key : List Byte) (hk : key.length = 16) (enc : Bool)
    (u : Str) (hu : IsUuid u) :
    ∃ (x y : Char) (s : Str) (bs : List Byte), IsHex x ∧ IsHex y ∧ bs.length = 15 ∧
      (∀ c ∈ s, IsHex c) ∧ s.length = 30 ∧
      u = layout x y s ∧ unhexlify s = .ok bs ∧ hexlify bs = lower s ∧
      uuidFromUuid E u key (dirName enc) = .ok (layout x y (hexlify (crypt E key enc bs))) := by
  obtain ⟨a, b, c, d, e, ha, hb, hc, hd, he, hx, hu⟩ := hu
  have hf := hex_groups hx hu
  obtain ⟨x, c', rfl⟩ : ∃ x c', c = x :: c' := by
    cases c with
    | nil => simp at hc
    | cons x c' => exact ⟨x, c', rfl⟩
  obtain ⟨y, d', rfl⟩ : ∃ y d', d = y :: d' := by
    cases d with
    | nil => simp at hd
    | cons x c' => exact ⟨x, c', rfl⟩
  have hc' : c'.length = 3 := by simpa using hc
  have hd' : d'.length = 3 := by simpa using hd
  have hs : ∀ z ∈ a ++ b ++ c' ++ d' ++ e, z ∈ hexChars := by
    intro z hz
    apply hx z
    simp only [List.mem_append, List.mem_cons] at hz ⊢
    rcases hz with (((h | h) | h) | h) | h <;> simp [h]
  obtain ⟨bs, h1, h2, h3⟩ := unhexlify_ok hs (k := 15) (by simp; omega)
  refine ⟨x, y, _, bs, hx x (by simp), hx y (by simp), h3, hs, by simp; omega, ?_, h1, h2, ?_⟩
  · rw [hu]
    have l1 : (a ++ b ++ c' ++ d' ++ e).take 8 = a := by
      rw [List.append_assoc, List.append_assoc, List.append_assoc]; exact List.take_left' ha
    have l2 : (a ++ b ++ c' ++ d' ++ e).drop 8 = b ++ (c' ++ (d' ++ e)) := by
      rw [List.append_assoc, List.append_assoc, List.append_assoc]; exact List.drop_left' ha
    have l3 : (a ++ b ++ c' ++ d' ++ e).drop 12 = c' ++ (d' ++ e) := by
      rw [List.append_assoc, List.append_assoc]; exact List.drop_left' (by simp; omega)
    have l4 : (a ++ b ++ c' ++ d' ++ e).drop 15 = d' ++ e := by
      rw [List.append_assoc]; exact List.drop_left' (by simp; omega)
    have l5 : (a ++ b ++ c' ++ d' ++ e).drop 18 = e := List.drop_left' (by simp; omega)
    have l6 : (e).take 12 = e := List.take_of_length_le (by omega)
    have l7 : (b ++ (c' ++ (d' ++ e))).take 4 = b := List.take_left' hb
    have l8 : (c' ++ (d' ++ e)).take 3 = c' := List.take_left' hc'
    have l9 : (d' ++ e).take 3 = d' := List.take_left' hd'
    simp only [layout, l1, l2, l3, l4, l5, l6, l7, l8, l9]
    simp
  · rw [conv_groups E key hk enc u a b c' d' e x y ha hb hc' hd' (by rw [hf]; simp), h1]

private theorem layout_form (x y : Char) (n : Str) (hn : n.length = 30) {D : Char → Prop}
    (hx : D x) (hy : D y) (hl : ∀ c ∈ n, D c) : UuidForm D (layout x y n) := by
  refine ⟨n.take 8, (n.drop 8).take 4, x :: (n.drop 12).take 3, y :: (n.drop 15).take 3,
    (n.drop 18).take 12, by simp; omega, by simp; omega, by simp; omega, by simp; omega,
    by simp; omega, ?_, by simp [layout]⟩
  intro z hz
  simp only [List.mem_append, List.mem_cons] at hz
  have tk : ∀ i j, z ∈ (n.drop i).take j → D z := fun i j h =>
    hl z (List.mem_of_mem_drop (List.mem_of_mem_take h))
  rcases hz with (((h | h) | h) | h) | h
  · exact hl z (List.mem_of_mem_take h)
  · exact tk _ _ h
  · rcases h with rfl | h
    · exact hx
    · exact tk _ _ h
  · rcases h with rfl | h
    · exact hy
    · exact tk _ _ h
  · exact tk _ _ h

private theorem layout_digits (x y : Char) (n : Str) (hn : n.length = 30) :
    versionDigit (layout x y n) = some x ∧ variantDigit (layout x y n) = some y := by
  have e1 : layout x y n = (n.take 8 ++ ['-'] ++ (n.drop 8).take 4 ++ ['-']) ++
      (x :: ((n.drop 12).take 3 ++ ['-'] ++ [y] ++ (n.drop 15).take 3 ++ ['-'] ++
        (n.drop 18).take 12)) := by simp [layout]
  have e2 : layout x y n = (n.take 8 ++ ['-'] ++ (n.drop 8).take 4 ++ ['-'] ++ [x] ++
      (n.drop 12).take 3 ++ ['-']) ++ (y :: ((n.drop 15).take 3 ++ ['-'] ++
        (n.drop 18).take 12)) := by simp [layout]
  constructor
  · rw [versionDigit, e1, List.getElem?_append_right (by simp; omega)]
    have : 14 - (n.take 8 ++ ['-'] ++ (n.drop 8).take 4 ++ ['-']).length = 0 := by simp; omega
    rw [this]; rfl
  · rw [variantDigit, e2, List.getElem?_append_right (by simp; omega)]
    have : 19 - (n.take 8 ++ ['-'] ++ (n.drop 8).take 4 ++ ['-'] ++ [x] ++
      (n.drop 12).take 3 ++ ['-']).length = 0 := by simp; omega
    rw [this]; rfl

private theorem layout_inj {x y x' y' : Char} {n n' : Str} (hn : n.length = 30)
    (hn' : n'.length = 30) (h : layout x y n = layout x' y' n') : x = x' ∧ y = y' ∧ n = n' := by
  have split : ∀ m : Str, m.length = 30 → m = m.take 8 ++ ((m.drop 8).take 4 ++ ((m.drop 12).take 3 ++
      ((m.drop 15).take 3 ++ (m.drop 18).take 12))) := by
    intro m hm
    have t : ∀ i j : Nat, m.drop i = (m.drop i).take j ++ m.drop (i + j) := by
      intro i j
      rw [← List.drop_drop]; exact (List.take_append_drop j (m.drop i)).symm
    have t5 : (m.drop 18).take 12 = m.drop 18 := List.take_of_length_le (by simp; omega)
    rw [t5]
    conv => lhs; rw [← List.take_append_drop 8 m, t 8 4, t 12 3, t 15 3]
  simp only [layout] at h
  have L : ∀ (m : Str) (i j : Nat), m.length = 30 → i + j ≤ 30 → ((m.drop i).take j).length = j := by
    intro m i j hm hij; simp; omega
  have L0 : ∀ m : Str, m.length = 30 → (m.take 8).length = 8 := by intro m hm; simp; omega
  simp only [List.append_assoc, List.cons_append, List.nil_append] at h
  obtain ⟨h1, h⟩ := List.append_inj h (by rw [L0 n hn, L0 n' hn'])
  rw [List.cons_inj_right] at h
  obtain ⟨h2, h⟩ := List.append_inj h (by rw [L n 8 4 hn (by omega), L n' 8 4 hn' (by omega)])
  rw [List.cons_inj_right] at h
  injection h with hx h
  obtain ⟨h3, h⟩ := List.append_inj h (by rw [L n 12 3 hn (by omega), L n' 12 3 hn' (by omega)])
  rw [List.cons_inj_right] at h
  injection h with hy h
  obtain ⟨h4, h⟩ := List.append_inj h (by rw [L n 15 3 hn (by omega), L n' 15 3 hn' (by omega)])
  rw [List.cons_inj_right] at h
  refine ⟨hx, hy, ?_⟩
  rw [split n hn, split n' hn', h1, h2, h3, h4, h]

private theorem lower_layout (x y : Char) (n : Str) :
    lower (layout x y n) = layout x.toLower y.toLower (lower n) := by
  simp [lower, layout, List.map_take, List.map_drop, show Char.toLower '-' = '-' by decide]

private theorem lower_twice (x y : Char) (s : Str) (hs : ∀ c ∈ s, IsHex c) :
    lower (layout x y (lower s)) = lower (layout x y s) := by
  rw [lower_layout, lower_layout]
  congr 1
  simp only [lower, List.map_map]
  exact List.map_congr_left (fun c hc => toLower_toLower (hs c hc))

private theorem conv_back (E : BlockFn) (key : List Byte) (hk : key.length = 16) (enc : Bool)
    (u : Str) (hu : IsUuid u) :
    ∃ v w, uuidFromUuid E u key (dirName enc) = .ok v ∧ IsUuid v ∧
      uuidFromUuid E v key (dirName (!enc)) = .ok w ∧
      ∃ x y s, IsHex x ∧ IsHex y ∧ s.length = 30 ∧ (∀ c ∈ s, IsHex c) ∧
        u = layout x y s ∧ w = layout x y (lower s) := by
  obtain ⟨x, y, s, bs, hx, hy, hbs, hs, hs30, hlay, hun, hhex, hconv⟩ := conv_uuid E key hk enc u hu
  have hlen : (hexlify (crypt E key enc bs)).length = 30 := by
    rw [hexlify_length, crypt_length, hbs]
  have hlow : ∀ c ∈ hexlify (crypt E key enc bs), IsHex c :=
    fun c hc => lower_mem_hexChars (hexlify_lower _ c hc)
  have hv : IsUuid (layout x y (hexlify (crypt E key enc bs))) := layout_form x y _ hlen hx hy hlow
  obtain ⟨x', y', s', bs', _, _, hbs', hs', hs30', hlay', hun', _, hconv'⟩ :=
    conv_uuid E key hk (!enc) _ hv
  obtain ⟨rfl, rfl, rfl⟩ := layout_inj hlen hs30' hlay'
  rw [unhexlify_hexlify] at hun'
  cases hun'
  rw [crypt_crypt, hhex] at hconv'
  exact ⟨_, _, hconv, hv, hconv', x, y, s, hx, hy, hs30, hs, hlay, rfl⟩

theorem lavKey_length : lavKey.length = 16 := by decide

/-! ### C01 Round trip -/

/-- C01. Every EcoSpold 2 identifier is converted, and converting the ILCD identifier back gives
the original one (up to the case of the digits). -/
theorem uuid_roundtrip_ecs_ilcd_ecs (E : BlockFn) (u : Str) (hu : IsUuid u) :
    ∃ v w, ecsToIlcd E u = .ok v ∧ ilcdToEcs E v = .ok w ∧ lower w = lower u := by
  obtain ⟨v, w, h1, _, h2, x, y, s, _, _, _, hs, rfl, rfl⟩ :=
    conv_back E lavKey lavKey_length true u hu
  exact ⟨v, _, h1, h2, lower_twice x y s hs⟩

/-- C01. The same in the other direction: ILCD to EcoSpold 2 and back. -/
theorem uuid_roundtrip_ilcd_ecs_ilcd (E : BlockFn) (u : Str) (hu : IsUuid u) :
    ∃ v w, ilcdToEcs E u = .ok v ∧ ecsToIlcd E v = .ok w ∧ lower w = lower u := by
  obtain ⟨v, w, h1, _, h2, x, y, s, _, _, _, hs, rfl, rfl⟩ :=
    conv_back E lavKey lavKey_length false u hu
  exact ⟨v, _, h1, h2, lower_twice x y s hs⟩

theorem isUuid_of_lower {u : Str} (h : IsLowerUuid u) : IsUuid u := by
  obtain ⟨a, b, c, d, e, h1, h2, h3, h4, h5, hx, hu⟩ := h
  exact ⟨a, b, c, d, e, h1, h2, h3, h4, h5, fun x hm => lower_mem_hexChars (hx x hm), hu⟩

theorem lower_self {u : Str} (h : IsLowerUuid u) : lower u = u := by
  obtain ⟨a, b, c, d, e, h1, h2, h3, h4, h5, hx, rfl⟩ := h
  have f : ∀ s : Str, (∀ x ∈ s, x ∈ a ++ b ++ c ++ d ++ e) → s.map Char.toLower = s := by
    intro s hs
    conv => rhs; rw [← List.map_id s]
    exact List.map_congr_left (fun x h => toLower_of_lower (hx x (hs x h)))
  simp only [lower, List.map_append, List.map_cons, List.map_nil,
    show Char.toLower '-' = '-' by decide]
  rw [f a (by intro x h; simp [h]), f b (by intro x h; simp [h]), f c (by intro x h; simp [h]),
    f d (by intro x h; simp [h]), f e (by intro x h; simp [h])]

private theorem layout_lower_form {x y : Char} {s : Str} (hs : s.length = 30)
    (h : IsLowerUuid (layout x y s)) : IsLowerHex x ∧ IsLowerHex y ∧ ∀ c ∈ s, IsLowerHex c := by
  obtain ⟨a, b, c, d, e, h1, h2, h3, h4, h5, hx, hu⟩ := h
  obtain ⟨x', c', rfl⟩ : ∃ x c', c = x :: c' := by
    cases c with
    | nil => simp at h3
    | cons x c' => exact ⟨x, c', rfl⟩
  obtain ⟨y', d', rfl⟩ : ∃ y d', d = y :: d' := by
    cases d with
    | nil => simp at h4
    | cons x c' => exact ⟨x, c', rfl⟩
  have hc' : c'.length = 3 := by simpa using h3
  have hd' : d'.length = 3 := by simpa using h4
  have : layout x y s = layout x' y' (a ++ b ++ c' ++ d' ++ e) := by
    rw [hu]
    have l1 : (a ++ b ++ c' ++ d' ++ e).take 8 = a := by
      rw [List.append_assoc, List.append_assoc, List.append_assoc]; exact List.take_left' h1
    have l2 : (a ++ b ++ c' ++ d' ++ e).drop 8 = b ++ (c' ++ (d' ++ e)) := by
      rw [List.append_assoc, List.append_assoc, List.append_assoc]; exact List.drop_left' h1
    have l3 : (a ++ b ++ c' ++ d' ++ e).drop 12 = c' ++ (d' ++ e) := by
      rw [List.append_assoc, List.append_assoc]; exact List.drop_left' (by simp; omega)
    have l4 : (a ++ b ++ c' ++ d' ++ e).drop 15 = d' ++ e := by
      rw [List.append_assoc]; exact List.drop_left' (by simp; omega)
    have l5 : (a ++ b ++ c' ++ d' ++ e).drop 18 = e := List.drop_left' (by simp; omega)
    have l6 : (e).take 12 = e := List.take_of_length_le (by omega)
    have l7 : (b ++ (c' ++ (d' ++ e))).take 4 = b := List.take_left' h2
    have l8 : (c' ++ (d' ++ e)).take 3 = c' := List.take_left' hc'
    have l9 : (d' ++ e).take 3 = d' := List.take_left' hd'
    simp only [layout, l1, l2, l3, l4, l5, l6, l7, l8, l9]
    simp
  obtain ⟨rfl, rfl, rfl⟩ := layout_inj hs (by simp; omega) this
  refine ⟨hx _ (by simp), hx _ (by simp), ?_⟩
  intro z hz
  apply hx z
  simp only [List.mem_append, List.mem_cons] at hz ⊢
  rcases hz with (((h | h) | h) | h) | h <;> simp [h]

/-- C01. For identifiers written in lower case, as the formats do, the round trip is exact. -/
theorem uuid_roundtrip_exact (E : BlockFn) (u : Str) (hu : IsLowerUuid u) :
    (∃ v, ecsToIlcd E u = .ok v ∧ ilcdToEcs E v = .ok u) ∧
    (∃ v, ilcdToEcs E u = .ok v ∧ ecsToIlcd E v = .ok u) := by
  have key : ∀ enc : Bool, ∃ v, uuidFromUuid E u lavKey (dirName enc) = .ok v ∧
      uuidFromUuid E v lavKey (dirName (!enc)) = .ok u := by
    intro enc
    obtain ⟨v, w, h1, _, h2, x, y, s, _, _, hs30, _, rfl, rfl⟩ :=
      conv_back E lavKey lavKey_length enc u (isUuid_of_lower hu)
    refine ⟨v, h1, ?_⟩
    have hl : lower s = s := by
      conv => rhs; rw [← List.map_id s]
      exact List.map_congr_left (fun c hc => toLower_of_lower ((layout_lower_form hs30 hu).2.2 c hc))
    rw [h2, hl]
  exact ⟨key true, key false⟩

/-! ### C02 Injectivity -/

/-- C02. Two EcoSpold 2 identifiers converted to the same ILCD identifier are the same
identifier (case of digits aside), and conversely. -/
theorem uuid_injective (E : BlockFn) (u u' v : Str) (hu : IsUuid u) (hu' : IsUuid u') :
    (ecsToIlcd E u = .ok v → ecsToIlcd E u' = .ok v → lower u = lower u') ∧
    (ilcdToEcs E u = .ok v → ilcdToEcs E u' = .ok v → lower u = lower u') := by
  constructor
  · intro h h'
    obtain ⟨v1, w1, a1, b1, c1⟩ := uuid_roundtrip_ecs_ilcd_ecs E u hu
    obtain ⟨v2, w2, a2, b2, c2⟩ := uuid_roundtrip_ecs_ilcd_ecs E u' hu'
    rw [h] at a1; cases a1
    rw [h'] at a2; cases a2
    rw [b1] at b2; cases b2
    rw [← c1, ← c2]
  · intro h h'
    obtain ⟨v1, w1, a1, b1, c1⟩ := uuid_roundtrip_ilcd_ecs_ilcd E u hu
    obtain ⟨v2, w2, a2, b2, c2⟩ := uuid_roundtrip_ilcd_ecs_ilcd E u' hu'
    rw [h] at a1; cases a1
    rw [h'] at a2; cases a2
    rw [b1] at b2; cases b2
    rw [← c1, ← c2]

/-! ### C03 Shape -/

/-- C03. Every well-formed identifier is converted, in both directions, to a well-formed
identifier with the same version and variant digits; a lower-case one stays lower-case. -/
theorem uuid_shape (E : BlockFn) (u : Str) (hu : IsUuid u)
    (conv : Str → Py Str) (hconv : conv = ecsToIlcd E ∨ conv = ilcdToEcs E) :
    ∃ v, conv u = .ok v ∧ IsUuid v ∧ versionDigit v = versionDigit u ∧
      variantDigit v = variantDigit u ∧ (IsLowerUuid u → IsLowerUuid v) := by
  have key : ∀ enc : Bool, ∃ v, uuidFromUuid E u lavKey (dirName enc) = .ok v ∧ IsUuid v ∧
      versionDigit v = versionDigit u ∧ variantDigit v = variantDigit u ∧
      (IsLowerUuid u → IsLowerUuid v) := by
    intro enc
    obtain ⟨x, y, s, bs, hx, hy, hbs, hs, hs30, rfl, hun, hhex, h⟩ :=
      conv_uuid E lavKey lavKey_length enc u hu
    have hlen : (hexlify (crypt E lavKey enc bs)).length = 30 := by
      rw [hexlify_length, crypt_length, hbs]
    refine ⟨_, h, layout_form x y _ hlen hx hy
      (fun c hc => lower_mem_hexChars (hexlify_lower _ c hc)), ?_, ?_, ?_⟩
    · rw [(layout_digits x y _ hlen).1, (layout_digits x y s hs30).1]
    · rw [(layout_digits x y _ hlen).2, (layout_digits x y s hs30).2]
    · intro hl
      obtain ⟨hx', hy', _⟩ := layout_lower_form hs30 hl
      exact layout_form x y _ hlen hx' hy' (fun c hc => hexlify_lower _ c hc)
  rcases hconv with rfl | rfl
  · exact key true
  · exact key false

/-! ### C04 Malformed identifiers

The full claim would be: `conv u = .ok v → IsUuid u`. It is false of the code. -/

/-- C04. The claim "only UUIDs are converted" is false: a text of 34 hexadecimal digits is
converted, to the same identifier as the UUID made of its first 32 digits. -/
theorem uuid_malformed_accepted (E : BlockFn) :
    (∃ u v, ¬ IsUuid u ∧ ecsToIlcd E u = .ok v) ∧
    (∃ u u' v, IsUuid u ∧ ¬ IsUuid u' ∧ lower u ≠ lower u' ∧
      ecsToIlcd E u = .ok v ∧ ecsToIlcd E u' = .ok v) := by
  have hbase : IsUuid c!"e6cc5b9b-5efb-44e7-bb31-b239fc135928" :=
    ⟨c!"e6cc5b9b", c!"5efb", c!"44e7", c!"bb31", c!"b239fc135928", rfl, rfl, rfl, rfl, rfl,
      by simp only [IsHex]; decide, rfl⟩
  have hlen : ∀ {u}, IsUuid u → u.length = 36 := by
    rintro u ⟨a, b, c, d, e, h1, h2, h3, h4, h5, -, rfl⟩
    simp; omega
  have hlong : ¬ IsUuid c!"e6cc5b9b-5efb-44e7-bb31-b239fc13592800" := by
    intro h; have := hlen h; revert this; decide
  have h1 := conv_groups E lavKey lavKey_length true c!"e6cc5b9b-5efb-44e7-bb31-b239fc135928"
    c!"e6cc5b9b" c!"5efb" c!"4e7" c!"b31" c!"b239fc135928" '4' 'b' rfl rfl rfl rfl (by decide)
  have h2 := conv_groups E lavKey lavKey_length true c!"e6cc5b9b-5efb-44e7-bb31-b239fc13592800"
    c!"e6cc5b9b" c!"5efb" c!"4e7" c!"b31" c!"b239fc13592800" '4' 'b' rfl rfl rfl rfl (by decide)
  obtain ⟨bs, hb1, hb2, hb3⟩ := unhexlify_ok
    (s := c!"e6cc5b9b" ++ c!"5efb" ++ c!"4e7" ++ c!"b31" ++ c!"b239fc135928") (by decide) (k := 15) rfl
  have hb4 : unhexlify (c!"e6cc5b9b" ++ c!"5efb" ++ c!"4e7" ++ c!"b31" ++ c!"b239fc13592800") =
      .ok (bs ++ [0]) := unhexlify_append (t := c!"00") (cs := [0]) hb1 (by decide)
  rw [hb1] at h1
  rw [hb4] at h2
  have hsame : layout '4' 'b' (hexlify (crypt E lavKey true (bs ++ [0]))) =
      layout '4' 'b' (hexlify (crypt E lavKey true bs)) := by
    have ht : ∀ n : Str, layout '4' 'b' n = layout '4' 'b' (n.take 30) := by
      intro n
      simp [layout, List.take_take, List.drop_take]
    rw [ht, show (30 : Nat) = 2 * 15 from rfl, hexlify_take]
    have := crypt_take E lavKey true bs [0]
    rw [hb3] at this
    rw [this]
  simp only [hsame] at h2
  exact ⟨⟨_, _, hlong, h2⟩, ⟨_, _, _, hbase, hlong, by decide, h1, h2⟩⟩

/-- C04 (partial: texts that are rejected are exactly described, but they are not all the
malformed ones). The conversion of a text succeeds if and only if, hyphens removed, it has at
least 17 characters, an even number of them, and all but the 13th and the 17th are hexadecimal
digits. In every other case an error is raised. -/
theorem uuid_accepts_iff_partial (E : BlockFn) (u : Str) :
    (∃ v, ecsToIlcd E u = .ok v) ↔
      17 ≤ (u.filter (· ≠ '-')).length ∧ (u.filter (· ≠ '-')).length % 2 = 0 ∧
      ∀ i c, (u.filter (· ≠ '-'))[i]? = some c → i ≠ 12 → i ≠ 16 → IsHex c := by
  generalize hf : u.filter (· ≠ '-') = f
  by_cases hlen : 17 ≤ f.length
  · obtain ⟨a, b, x, c, y, r, ha, hb, hc, hfr⟩ : ∃ a b x c y r, a.length = 8 ∧ b.length = 4 ∧
        c.length = 3 ∧ f = a ++ b ++ x :: (c ++ y :: r) := by
      refine ⟨f.take 8, (f.drop 8).take 4, f[12]'(by omega), (f.drop 13).take 3, f[16]'(by omega),
        f.drop 17, by simp; omega, by simp; omega, by simp; omega, ?_⟩
      have t : ∀ i j : Nat, f.drop i = (f.drop i).take j ++ f.drop (i + j) := by
        intro i j
        rw [← List.drop_drop]; exact (List.take_append_drop j (f.drop i)).symm
      conv => lhs; rw [← List.take_append_drop 8 f, t 8 4, List.drop_eq_getElem_cons (i := 8 + 4) (by omega), t (8 + 4 + 1) 3, List.drop_eq_getElem_cons (i := 8 + 4 + 1 + 3) (by omega)]
      simp
    have hconv := uuidFromUuid_eq E u lavKey lavKey_length true
    rw [hf, hfr] at hconv
    have h12 : (a ++ b ++ x :: (c ++ y :: r))[12]? = some x := by
      rw [List.getElem?_append_right (by simp; omega)]
      simp [ha, hb]
    have h16 : (a ++ b ++ x :: (c ++ y :: r))[16]? = some y := by
      rw [List.getElem?_append_right (by simp; omega)]
      simp [ha, hb, hc]
    have e1 : (a ++ b ++ x :: (c ++ y :: r)).take 12 = a ++ b :=
      List.take_left' (by simp; omega)
    have e2 : (a ++ b ++ x :: (c ++ y :: r)).drop 13 = c ++ y :: r := by
      rw [show a ++ b ++ x :: (c ++ y :: r) = (a ++ b ++ [x]) ++ (c ++ y :: r) by simp]
      exact List.drop_left' (by simp; omega)
    have e3 : (a ++ b ++ (c ++ y :: r)).take 15 = a ++ b ++ c := by
      rw [show a ++ b ++ (c ++ y :: r) = (a ++ b ++ c) ++ (y :: r) by simp]
      exact List.take_left' (by simp; omega)
    have e4 : (a ++ b ++ (c ++ y :: r)).drop 16 = r := by
      rw [show a ++ b ++ (c ++ y :: r) = (a ++ b ++ c ++ [y]) ++ r by simp]
      exact List.drop_left' (by simp; omega)
    rw [h12, h16] at hconv
    simp only [dropDigits, e1, e2, e3, e4] at hconv
    have hidx : (∀ i z, f[i]? = some z → i ≠ 12 → i ≠ 16 → IsHex z) ↔
        ∀ z ∈ a ++ b ++ c ++ r, z ∈ hexChars := by
      constructor
      · intro h z hz
        simp only [List.mem_append] at hz
        have hab : ∀ i, i < 12 → f[i]? = (a ++ b)[i]? := by
          intro i hi; rw [hfr, List.getElem?_append_left (by simp; omega)]
        have hcc : ∀ i, i < 3 → f[13 + i]? = c[i]? := by
          intro i hi
          rw [hfr, show a ++ b ++ x :: (c ++ y :: r) = (a ++ b ++ [x]) ++ (c ++ y :: r) by simp,
            List.getElem?_append_right (by simp; omega), List.getElem?_append_left (by simp; omega)]
          congr 1; simp; omega
        have hrr : ∀ i, f[17 + i]? = r[i]? := by
          intro i
          rw [hfr, show a ++ b ++ x :: (c ++ y :: r) = (a ++ b ++ [x] ++ c ++ [y]) ++ r by simp,
            List.getElem?_append_right (by simp; omega)]
          congr 1; simp; omega
        rcases hz with (hz | hz) | hz
        · have hz' : z ∈ a ++ b := by simpa using hz
          obtain ⟨i, hi⟩ := List.mem_iff_getElem?.1 hz'
          have hlt : i < 12 := by
            have := (List.getElem?_eq_some_iff.1 hi).1; simp at this; omega
          exact h i z (by rw [hab i hlt, hi]) (by omega) (by omega)
        · obtain ⟨i, hi⟩ := List.mem_iff_getElem?.1 hz
          have hlt : i < 3 := by
            have := (List.getElem?_eq_some_iff.1 hi).1; omega
          exact h (13 + i) z (by rw [hcc i hlt, hi]) (by omega) (by omega)
        · obtain ⟨i, hi⟩ := List.mem_iff_getElem?.1 hz
          exact h (17 + i) z (by rw [hrr i, hi]) (by omega) (by omega)
      · intro h i z hi hn12 hn16
        rw [hfr] at hi
        apply h
        simp only [List.mem_append]
        rcases Nat.lt_or_ge i 12 with hlt | hge
        · rw [List.getElem?_append_left (by simp; omega)] at hi
          have := List.mem_of_getElem? hi
          simp only [List.mem_append] at this
          exact Or.inl (Or.inl this)
        · rw [show a ++ b ++ x :: (c ++ y :: r) = (a ++ b ++ [x]) ++ (c ++ y :: r) by simp,
            List.getElem?_append_right (by simp; omega)] at hi
          rcases Nat.lt_or_ge i 16 with hlt | hge
          · rw [List.getElem?_append_left (by simp; omega)] at hi
            exact Or.inl (Or.inr (List.mem_of_getElem? hi))
          · rw [List.getElem?_append_right (by simp; omega)] at hi
            rw [List.getElem?_cons] at hi
            split at hi
            · rename_i h0
              simp at h0; omega
            · exact Or.inr (List.mem_of_getElem? hi)
    have hfl : f.length = 14 + c.length + r.length := by rw [hfr]; simp only [List.length_append, List.length_cons]; omega
    rw [hidx]
    constructor
    · rintro ⟨v, hv⟩
      unfold ecsToIlcd at hv
      rw [show "flow_conversion_1" = dirName true from rfl, hconv] at hv
      split at hv
      · rename_i bs hbs
        obtain ⟨g1, g2⟩ := unhexlify_inv hbs
        refine ⟨hlen, ?_, g1⟩
        simp only [List.length_append] at g2; omega
      · cases hv
    · rintro ⟨_, hev, hall⟩
      have hl : (a ++ b ++ c ++ r).length = 2 * ((f.length - 2) / 2) := by
        simp only [List.length_append]; omega
      obtain ⟨bs, hbs, _, _⟩ := unhexlify_ok hall hl
      rw [hbs] at hconv
      exact ⟨_, hconv⟩
  · constructor
    · rintro ⟨v, hv⟩
      exfalso
      unfold ecsToIlcd at hv
      rw [show "flow_conversion_1" = dirName true from rfl,
        uuidFromUuid_eq E u lavKey lavKey_length true, hf] at hv
      rw [List.getElem?_eq_none (l := f) (i := 16) (by omega)] at hv
      split at hv
      · rename_i h1 h2; cases h2
      · cases hv
    · rintro ⟨h, _⟩; omega

/-- Both sides of the equivalence are met: the UUID of the code's own comment is accepted and
a short text is not. -/
example (E : BlockFn) : (∃ v, ecsToIlcd E c!"e6cc5b9b-5efb-44e7-bb31-b239fc135928" = .ok v) ∧
    ¬ ∃ v, ecsToIlcd E c!"e6cc5b9b-5efb" = .ok v := by
  constructor
  · obtain ⟨v, h, _⟩ := uuid_shape E c!"e6cc5b9b-5efb-44e7-bb31-b239fc135928"
      ⟨c!"e6cc5b9b", c!"5efb", c!"44e7", c!"bb31", c!"b239fc135928", rfl, rfl, rfl, rfl, rfl,
        by simp only [IsHex]; decide, rfl⟩ _ (Or.inl rfl)
    exact ⟨v, h⟩
  · rw [uuid_accepts_iff_partial]
    simp [List.filter]

/-- The hypotheses of C01-C03 are met by an upper-case and a lower-case UUID. -/
example : IsUuid c!"E6CC5B9B-5efb-44e7-bb31-b239fc135928" ∧
    IsLowerUuid c!"e6cc5b9b-5efb-44e7-bb31-b239fc135928" :=
  ⟨⟨c!"E6CC5B9B", c!"5efb", c!"44e7", c!"bb31", c!"b239fc135928", rfl, rfl, rfl, rfl, rfl,
    by simp only [IsHex]; decide, rfl⟩,
   ⟨c!"e6cc5b9b", c!"5efb", c!"44e7", c!"bb31", c!"b239fc135928", rfl, rfl, rfl, rfl, rfl,
    by simp only [IsLowerHex]; decide, rfl⟩⟩

/-! ### C04 Other directions and other keys -/

/-- C04. With a name of a direction other than the two known ones no identifier is converted,
whatever the key; for identifiers and keys that are in order the exception is the NameError of a
variable without a value. -/
theorem uuid_other_kind (E : BlockFn) (u : Str) (key : List Byte) (t : String)
    (h1 : t ≠ "flow_conversion_1") (h2 : t ≠ "flow_conversion_2") :
    (∀ v, uuidFromUuid E u key t ≠ .ok v) ∧
      (IsUuid u → key.length = 16 → uuidFromUuid E u key t = .error .nameError) := by
  constructor
  · intro v h
    simp only [uuidFromUuid, h1, h2, if_false] at h
    split at h
    · cases h
    · split at h
      · cases h
      · split at h
        · cases h
        · split at h <;> cases h
  · intro hu hk
    obtain ⟨x, y, s, bs, hx, hy, hbs, hs, hs30, rfl, hun, hhex, h⟩ := conv_uuid E key hk true u hu
    simp only [uuidFromUuid, dirName, h1, h2, if_false] at h ⊢
    split at h
    · cases h
    · split at h
      · cases h
      · split at h
        · cases h
        · have hp : aesParamsOk key key.reverse = true := by simp [aesParamsOk, hk]
          exact if_pos hp

/-- C04. With a key whose length is not one of 16, 24 or 32 bytes no identifier is converted;
nor with one of 24 or 32, as the initialisation vector is the key reversed. -/
theorem uuid_other_key (E : BlockFn) (u : Str) (key : List Byte) (t : String)
    (hk : key.length ≠ 16) (v : Str) : uuidFromUuid E u key t ≠ .ok v := by
  intro h
  have hp : aesParamsOk key key.reverse = false := by simp [aesParamsOk, hk]
  simp only [uuidFromUuid, hp] at h
  split at h
  · cases h
  · split at h
    · cases h
    · split at h
      · cases h
      · cases h

/-- The bytes of the key of both directions. -/
theorem lavKey_bytes : lavKey.map (·.toNat) =
    [92, 95, 95, 76, 97, 118, 95, 73, 76, 49, 69, 67, 50, 95, 95, 47] := by decide

/-- The hypotheses are met: a third direction, a key of 24 bytes. -/
example (E : BlockFn) (v : Str) :
    uuidFromUuid E c!"e6cc5b9b-5efb-44e7-bb31-b239fc135928" lavKey "flow_conversion_3" ≠ .ok v ∧
    uuidFromUuid E c!"e6cc5b9b-5efb-44e7-bb31-b239fc135928" (List.replicate 24 0)
      "flow_conversion_1" ≠ .ok v :=
  ⟨(uuid_other_kind E _ _ _ (by decide) (by decide)).1 v, uuid_other_key E _ _ _ (by decide) v⟩

end Verif.Uuid
