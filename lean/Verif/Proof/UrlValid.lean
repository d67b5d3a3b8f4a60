import Verif.Spec.Url
import Verif.Proof.UrlEnds
/- The records of the URL parser are valid. -/
namespace Verif.Proof.UrlValid
open Verif.Model.Infra Verif.Model.Unicode Verif.Model.Coder Verif.Model.Legacy Verif.Model.Percent Verif.Model.Host Verif.Model.Url
open Verif.Spec Verif.Spec.Percent Verif.Spec.Host Verif.Spec.Url
open Verif.Proof.UrlInner Verif.Proof.UrlEnds
open Verif.Props.Percent

/-! ### Dictionary -/

theorem special_iff (s : List Nat) : isSpecialScheme s = true ↔ Special s := by
  unfold isSpecialScheme Special specials
  simp only [Bool.or_eq_true, beq_iff_eq, List.mem_cons, List.not_mem_nil, or_false, Prod.mk.injEq]
  have e : ∀ t, lit t = codes t := fun t => rfl
  simp only [e]
  constructor
  · rintro (((((h | h) | h) | h) | h) | h)
    · exact ⟨some 21, by simp [h]⟩
    · exact ⟨none, by simp [h]⟩
    · exact ⟨some 80, by simp [h]⟩
    · exact ⟨some 443, by simp [h]⟩
    · exact ⟨some 80, by simp [h]⟩
    · exact ⟨some 443, by simp [h]⟩
  · rintro ⟨p, h⟩; tauto

theorem special_false (s : List Nat) : isSpecialScheme s = false ↔ ¬ Special s := by
  rw [← special_iff]; simp

theorem file_special : Special (codes "file") := ⟨none, by simp [specials]⟩

theorem default_iff (s : List Nat) (p : Nat) : defaultPort s = some p ↔ (s, some p) ∈ specials := by
  have e : ∀ t, lit t = codes t := fun t => rfl
  unfold defaultPort specials
  simp only [e, List.mem_cons, List.not_mem_nil, or_false, Prod.mk.injEq, Option.some.injEq, reduceCtorEq, and_false]
  by_cases h1 : s = codes "ftp"
  · rw [if_pos h1]; subst h1; simp [codes]; omega
  rw [if_neg h1]
  by_cases h2 : s = codes "file"
  · rw [if_pos h2]; subst h2; simp [codes]
  rw [if_neg h2]
  by_cases h3 : s = codes "http"
  · rw [if_pos h3]; subst h3; simp [codes]; omega
  rw [if_neg h3]
  by_cases h4 : s = codes "https"
  · rw [if_pos h4]; subst h4; simp [codes]; omega
  rw [if_neg h4]
  by_cases h5 : s = codes "ws"
  · rw [if_pos h5]; subst h5; simp [codes]; omega
  rw [if_neg h5]
  by_cases h6 : s = codes "wss"
  · rw [if_pos h6]; subst h6; simp [codes]; omega
  rw [if_neg h6]
  simp [h1, h3, h4, h5, h6]

/-! ### Valid but for the path -/

structure Core (u : Url) : Prop where
  scheme : SchemeOk u.scheme
  username : ∀ c ∈ u.username, ¬ InSet .userinfo c
  password : ∀ c ∈ u.password, ¬ InSet .userinfo c
  host : ∀ h, u.host = some h → GoodHost (Special u.scheme) h
  port : ∀ p, u.port = some p → p ≤ 65535 ∧ (u.scheme, some p) ∉ specials
  query : ∀ q, u.query = some q → ∀ c ∈ q, ¬ InSet .query c ∧ (Special u.scheme → ¬ InSet .specialQuery c)
  fragment : ∀ f, u.fragment = some f → ∀ c ∈ f, ¬ InSet .fragment c
  special : Special u.scheme → u.host ≠ none ∧ (u.scheme ≠ codes "file" → u.host ≠ some .empty)
  file : u.scheme = codes "file" → u.username = [] ∧ u.password = [] ∧ u.port = none
  authority : u.username ≠ [] ∨ u.password ≠ [] ∨ u.port ≠ none → ∃ h, u.host = some h ∧ ¬ Blank h
  path : ∀ p ∈ u.path, ¬ DotSegment p ∧ ∀ c ∈ p, ¬ InSet .path c ∧ c ≠ 0x2F ∧ (Special u.scheme → c ≠ 0x5C)
  base : u.cannotBeBase = false

theorem Core.valid {u : Url} (h : Core u) (hp : Special u.scheme → u.path ≠ []) : ValidUrl u where
  scheme := h.scheme
  username := h.username
  password := h.password
  host := h.host
  port := h.port
  query := h.query
  fragment := h.fragment
  special := fun hs => ⟨(h.special hs).1, hp hs, h.base, (h.special hs).2⟩
  file := h.file
  authority := h.authority
  cannot := fun hc => by rw [h.base] at hc; cases hc
  path := fun _ => h.path

theorem valid_core {u : Url} (h : ValidUrl u) (hb : u.cannotBeBase = false) : Core u where
  scheme := h.scheme
  username := h.username
  password := h.password
  host := h.host
  port := h.port
  query := h.query
  fragment := h.fragment
  special := fun hs => ⟨(h.special hs).1, (h.special hs).2.2.2⟩
  file := h.file
  authority := h.authority
  path := h.path hb
  base := hb

/-- A record with nothing but a scheme and credentials. -/
structure Fresh (u : Url) : Prop where
  scheme : SchemeOk u.scheme
  username : ∀ c ∈ u.username, ¬ InSet .userinfo c
  password : ∀ c ∈ u.password, ¬ InSet .userinfo c
  host : u.host = none
  port : u.port = none
  path : u.path = []
  query : u.query = none
  fragment : u.fragment = none
  base : u.cannotBeBase = false

theorem fresh_of {t : List Nat} (h : SchemeOk t) : Fresh { scheme := t } :=
  ⟨h, by simp, by simp, rfl, rfl, rfl, rfl, rfl, rfl⟩

/-- A host is added. -/
theorem Fresh.core {u : Url} (h : Fresh u) (hf : u.scheme = codes "file" → u.username = [] ∧ u.password = []) (k : Host)
    (hk : GoodHost (Special u.scheme) k) (he : u.scheme ≠ codes "file" → k ≠ .empty)
    (ha : u.username ≠ [] ∨ u.password ≠ [] → ¬ Blank k) : Core { u with host := some k } where
  scheme := h.scheme
  username := h.username
  password := h.password
  host := fun h hh => by cases hh; exact hk
  port := fun p hp => by dsimp only at hp; rw [h.port] at hp; cases hp
  query := fun p hp => by dsimp only at hp; rw [h.query] at hp; cases hp
  fragment := fun p hp => by dsimp only at hp; rw [h.fragment] at hp; cases hp
  special := fun _ => ⟨by simp, fun hh hhh => he hh (by injection hhh)⟩
  file := fun hh => ⟨(hf hh).1, (hf hh).2, h.port⟩
  authority := fun hh => ⟨k, rfl, ha (by
    rcases hh with hh | hh | hh
    · exact Or.inl hh
    · exact Or.inr hh
    · exact absurd h.port hh)⟩
  path := fun p hp => by dsimp only at hp; rw [h.path] at hp; cases hp
  base := h.base

/-! ### Hosts -/

theorem result_good {toAscii : List Nat → Ec → List Nat × Ec} (hA : ∀ q d, toAscii q none = (d, none) → d ≠ [])
    {s : List Nat} {u : Url} {h : Host}
    (hs : ∀ c ∈ s, IsScalar c) (hr : HostResult toAscii s (!isSpecial u) none h) (hn : h ≠ .null) :
    GoodHost (Special u.scheme) h ∧ h ≠ .empty ∧ (s ≠ [] → ¬ Blank h) := by
  have hc := result_clean hs hr
  have h1 : isSpecial u = true ↔ Special u.scheme := special_iff u.scheme
  cases hr with
  | null => exact absurd rfl hn
  | ipv6 a h1 h2 => exact ⟨⟨h1, h2⟩, by simp, fun _ => by simp [Blank]⟩
  | text hb h =>
    refine ⟨⟨fun h => ?_, hc⟩, by simp, fun hne => enc8_ne_nil _ _ hne⟩
    rw [← h1] at h; simp [h] at hb
  | ipv4 n hb _ h => exact ⟨⟨h1.mp (by simpa using hb), h⟩, by simp, fun _ => by simp [Blank]⟩
  | domain q d e hb _ hq h _ => exact ⟨⟨h1.mp (by simpa using hb), hA _ _ hq, h⟩, by simp, fun _ => by simp [Blank]⟩

/-! ### The invariant -/

/-- Segments in the making. -/
def SegOk (u : Url) (b : List Nat) : Prop := ∀ c ∈ b, ¬ InSet .path c ∧ c ≠ 0x2F ∧ (Special u.scheme → c ≠ 0x5C)

/-- What is known in each state of a parser without a state override. -/
def VN (x : Ctx) (s : St) : Prop :=
  match s.state with
  | .schemeStart => s.url = {} ∧ s.buffer = []
  | .scheme => s.url = {} ∧ SchemeOk s.buffer
  | .noScheme => s.url = {}
  | .specialRelativeOrAuthority => ∃ b, x.base = some b ∧ s.url = { scheme := b.scheme } ∧ Special b.scheme ∧ b.scheme ≠ codes "file"
  | .pathOrAuthority => ∃ t, s.url = { scheme := t } ∧ SchemeOk t ∧ ¬ Special t
  | .relative => ∃ b, x.base = some b ∧ b.cannotBeBase = false ∧ b.scheme ≠ codes "file" ∧
      (s.url = {} ∨ s.url = { scheme := b.scheme })
  | .relativeSlash => ∃ b, x.base = some b ∧ b.cannotBeBase = false ∧ b.scheme ≠ codes "file" ∧ s.url = { scheme := b.scheme }
  | .specialAuthoritySlashes => ∃ t, s.url = { scheme := t } ∧ SchemeOk t ∧ t ≠ codes "file"
  | .specialAuthorityIgnoreSlashes => ∃ t, s.url = { scheme := t } ∧ SchemeOk t ∧ t ≠ codes "file"
  | .authority => Fresh s.url ∧ s.url.scheme ≠ codes "file" ∧ (s.atSignSeen = false → s.url.username = [] ∧ s.url.password = []) ∧
      (s.buffer ≠ [] → endsAuthority s.url (x.at (s.pos - s.buffer.length)) = false)
  | .host => Fresh s.url ∧ s.url.scheme ≠ codes "file" ∧
      (s.url.username ≠ [] ∨ s.url.password ≠ [] → s.buffer = [] → endsAuthority s.url (x.at s.pos) = false)
  | .hostname => Fresh s.url ∧ s.url.scheme ≠ codes "file" ∧
      (s.url.username ≠ [] ∨ s.url.password ≠ [] → s.buffer = [] → endsAuthority s.url (x.at s.pos) = false)
  | .port => Core s.url ∧ s.url.scheme ≠ codes "file" ∧ (∃ h, s.url.host = some h ∧ ¬ Blank h) 
  | .file => s.url = {} ∨ s.url = { scheme := codes "file" }
  | .fileSlash => s.url = { scheme := codes "file", host := some .empty }
  | .fileHost => s.url = { scheme := codes "file", host := some .empty }
  | .pathStart => Core s.url
  | .path => Core s.url ∧ SegOk s.url s.buffer
  | .cannotBeABaseUrlPath => ValidUrl s.url ∧ s.url.cannotBeBase = true
  | .query => ValidUrl s.url
  | .fragment => ValidUrl s.url

/-- What is known in each state of a parser with a state override. -/
def VO (s : St) : Prop :=
  match s.state with
  | .schemeStart => ValidUrl s.url ∧ s.buffer = []
  | .scheme => ValidUrl s.url ∧ SchemeOk s.buffer
  | .host => ValidUrl s.url ∧ s.url.cannotBeBase = false
  | .hostname => ValidUrl s.url ∧ s.url.cannotBeBase = false
  | .port => ValidUrl s.url ∧ s.url.scheme ≠ codes "file" ∧ (∃ h, s.url.host = some h ∧ ¬ Blank h) 
  | .fileHost => ValidUrl s.url ∧ s.url.scheme = codes "file"
  | .pathStart => Core s.url
  | .path => Core s.url ∧ SegOk s.url s.buffer
  | .query => ValidUrl s.url
  | .fragment => ValidUrl s.url
  | _ => False

def VInv (x : Ctx) (s : St) : Prop := if x.override = none then VN x s else VO s

structure XInv (x : Ctx) : Prop where
  nl : 0x0A ∉ x.input
  base : ∀ b, x.base = some b → ValidUrl b
  ascii : ∀ q d, x.toAscii q none = (d, none) → d ≠ []

/-- What an iteration may do. -/
def VOk (x : Ctx) : Step → Prop
  | .cont s' => (s'.pos < x.input.length → VInv x { s' with pos := s'.pos + 1 }) ∧ (x.input.length ≤ s'.pos → ValidUrl s'.url)
  | .failure s' => x.override ≠ none → ValidUrl s'.url
  | .ret s' => x.override ≠ none → ValidUrl s'.url
  | .ub => True
  | .more => True

theorem at_end {x : Ctx} {i : Int} (h : x.input.length ≤ i) : x.at i = 0x0A := by
  unfold Ctx.at; rw [if_neg (by omega)]

theorem vn {x : Ctx} {s : St} (ho : x.override = none) : VInv x s ↔ VN x s := by unfold VInv; rw [if_pos ho]
theorem vo {x : Ctx} {s : St} (ho : x.override ≠ none) : VInv x s ↔ VO s := by unfold VInv; rw [if_neg ho]

/-- A pointer that was set back is not at the end. -/
theorem vok_back {x : Ctx} {s' : St} (h : s'.pos < x.input.length) (hv : VInv x { s' with pos := s'.pos + 1 }) : VOk x (.cont s') :=
  ⟨fun _ => hv, fun hh => by omega⟩

theorem lower_char (c : Nat) (h : c < 0x80) : toAsciiLowercase .c32 .c32 [c] = some [if 0x41 ≤ c ∧ c ≤ 0x5A then c + 0x20 else c] := by
  have : (List.range 0x80).all (fun c => decide (toAsciiLowercase .c32 .c32 [c] = some [if 0x41 ≤ c ∧ c ≤ 0x5A then c + 0x20 else c])) = true := by
    decide +kernel
  exact of_decide_eq_true (List.all_eq_true.mp this c (List.mem_range.mpr h))

theorem at_nl {x : Ctx} (hx : XInv x) {i : Int} (h0 : 0 ≤ i) (h : x.at i = 0x0A) : x.input.length ≤ i := by
  unfold Ctx.at at h
  by_cases hi : 0 ≤ i ∧ i < x.input.length
  · rw [if_pos hi] at h
    have : i.toNat < x.input.length := by omega
    rw [List.getD_eq_getElem?_getD, List.getElem?_eq_getElem this] at h
    exact absurd (h ▸ List.getElem_mem this) hx.nl
  · omega

theorem in_of {x : Ctx} {i : Int} (h : x.at i ≠ 0x0A) : i < x.input.length := by
  by_cases h1 : i < x.input.length
  · exact h1
  · exact absurd (at_end (by omega)) h

/-! ### Changes to a record -/

theorem valid_setQuery {u : Url} (h : ValidUrl u) (q : Option (List Nat))
    (hq : ∀ t, q = some t → ∀ c ∈ t, ¬ InSet .query c ∧ (Special u.scheme → ¬ InSet .specialQuery c)) : ValidUrl { u with query := q } :=
  ⟨h.scheme, h.username, h.password, h.host, h.port, hq, h.fragment, h.special, h.file, h.authority, h.cannot, h.path⟩

theorem valid_setFragment {u : Url} (h : ValidUrl u) (q : Option (List Nat))
    (hq : ∀ t, q = some t → ∀ c ∈ t, ¬ InSet .fragment c) : ValidUrl { u with fragment := q } :=
  ⟨h.scheme, h.username, h.password, h.host, h.port, h.query, hq, h.special, h.file, h.authority, h.cannot, h.path⟩

theorem Core.setQuery {u : Url} (h : Core u) (q : Option (List Nat))
    (hq : ∀ t, q = some t → ∀ c ∈ t, ¬ InSet .query c ∧ (Special u.scheme → ¬ InSet .specialQuery c)) : Core { u with query := q } :=
  ⟨h.scheme, h.username, h.password, h.host, h.port, hq, h.fragment, h.special, h.file, h.authority, h.path, h.base⟩

/-- Segments of a path. -/
def PathOk (u : Url) (ps : List (List Nat)) : Prop := ∀ p ∈ ps, ¬ DotSegment p ∧ SegOk u p

theorem Core.setPath {u : Url} (h : Core u) (ps : List (List Nat)) (hp : PathOk u ps) : Core { u with path := ps } :=
  ⟨h.scheme, h.username, h.password, h.host, h.port, h.query, h.fragment, h.special, h.file, h.authority, hp, h.base⟩

theorem pathOk_append {u : Url} {ps qs : List (List Nat)} (h : PathOk u ps) (k : PathOk u qs) : PathOk u (ps ++ qs) := by
  intro p hp
  rcases List.mem_append.mp hp with hp | hp
  · exact h p hp
  · exact k p hp

theorem empty_ok (u : Url) : PathOk u [[]] := by
  intro p hp
  obtain rfl := List.mem_singleton.mp hp
  exact ⟨by decide, by intro c hc; cases hc⟩

theorem drive_ok {u : Url} {p : List Nat} (h : isWindowsDriveLetter p = true) : ¬ DotSegment p := by
  match p with
  | [] => simp [isWindowsDriveLetter] at h
  | [a] => simp [isWindowsDriveLetter] at h
  | [a, b] =>
    intro hd
    have e : ∀ t, codes t = lit t := fun _ => rfl
    have h1 : codes "." = [0x2E] := by decide
    have h2 : codes "%2e" = [0x25, 0x32, 0x65] := by decide
    have h3 : codes ".." = [0x2E, 0x2E] := by decide
    have h4 : codes ".%2e" = [0x2E, 0x25, 0x32, 0x65] := by decide
    have h5 : codes "%2e." = [0x25, 0x32, 0x65, 0x2E] := by decide
    have h6 : codes "%2e%2e" = [0x25, 0x32, 0x65, 0x25, 0x32, 0x65] := by decide
    unfold DotSegment at hd
    rw [h1, h2, h3, h4, h5, h6] at hd
    simp [Verif.Spec.Infra.lower] at hd
    simp [isWindowsDriveLetter, isAsciiAlpha, isAsciiUpperAlpha, isAsciiLowerAlpha] at h
    have := hd.1
    split at this <;> omega
  | a :: b :: c :: r => simp [isWindowsDriveLetter] at h

theorem normalized_drive {p : List Nat} (h : isNormalizedWindowsDriveLetter p = true) : isWindowsDriveLetter p = true := by
  unfold isNormalizedWindowsDriveLetter at h
  split at h
  · simp only [Bool.and_eq_true, beq_iff_eq] at h
    simp [isWindowsDriveLetter, h]
  · cases h

theorem shorten_path (u : Url) : ∃ ps, shortenPath u = { u with path := ps } ∧ ∀ p ∈ ps, p ∈ u.path := by
  unfold shortenPath
  split
  · exact ⟨u.path, by cases u; rfl, fun _ h => h⟩
  · split
    · exact ⟨u.path, by cases u; rfl, fun _ h => h⟩
    · exact ⟨_, rfl, fun _ h => (List.dropLast_sublist _).mem h⟩

theorem singleDot_iff (s : List Nat) : isSingleDot s = true ↔ s.map Verif.Spec.Infra.lower ∈ [codes ".", codes "%2e"] := by
  have h1 : codes "." = [0x2E] := by decide
  have h2 : codes "%2e" = [0x25, 0x32, 0x65] := by decide
  have h3 : lit "." = [0x2E] := by decide
  have h4 : lit "%2e" = [0x25, 0x32, 0x65] := by decide
  have h5 : lit "%2E" = [0x25, 0x32, 0x45] := by decide
  have l1 : ∀ c, Verif.Spec.Infra.lower c = 0x2E ↔ c = 0x2E := by intro c; unfold Verif.Spec.Infra.lower; split <;> omega
  have l2 : ∀ c, Verif.Spec.Infra.lower c = 0x25 ↔ c = 0x25 := by intro c; unfold Verif.Spec.Infra.lower; split <;> omega
  have l3 : ∀ c, Verif.Spec.Infra.lower c = 0x32 ↔ c = 0x32 := by intro c; unfold Verif.Spec.Infra.lower; split <;> omega
  have l4 : ∀ c, Verif.Spec.Infra.lower c = 0x65 ↔ c = 0x65 ∨ c = 0x45 := by intro c; unfold Verif.Spec.Infra.lower; split <;> omega
  unfold isSingleDot
  rw [h1, h2, h3, h4, h5]
  match s with
  | [] => simp
  | [a] => simp [l1]
  | [a, b] => simp
  | [a, b, c] => simp [l2, l3, l4]; tauto
  | a :: b :: c :: d :: r => simp

theorem push_ok {u v : Url} {b : List Nat} {slash : Bool} (hc : Core u) (hb : SegOk u b) (ha : ∀ c ∈ b, c < 0x80)
    (h : pushSegment u b slash = some v) : ∃ ps, v = { u with path := ps } ∧ PathOk u ps ∧ (slash = false → ps ≠ []) := by
  have hsub : ∀ ps : List (List Nat), (∀ p ∈ ps, p ∈ u.path) → PathOk u ps := fun ps h p hp => hc.path p (h p hp)
  obtain ⟨ps, hps, hmem⟩ := shorten_path u
  unfold pushSegment at h
  rw [doubleDot_eq b ha] at h
  by_cases hd : b.map Verif.Spec.Infra.lower ∈ [codes "..", codes ".%2e", codes "%2e.", codes "%2e%2e"]
  · rw [decide_eq_true hd] at h
    dsimp only at h
    injection h with h
    rw [hps] at h
    cases slash
    · exact ⟨ps ++ [[]], h.symm, pathOk_append (hsub _ hmem) (empty_ok u), by simp⟩
    · exact ⟨ps, h.symm, hsub _ hmem, by simp⟩
  · rw [decide_eq_false hd] at h
    dsimp only at h
    by_cases h1 : isSingleDot b = true
    · rw [if_pos h1] at h
      injection h with h
      cases slash
      · exact ⟨u.path ++ [[]], h.symm, pathOk_append (hsub _ fun _ h => h) (empty_ok u), by simp⟩
      · exact ⟨u.path, by rw [← h]; cases u; rfl, hsub _ fun _ h => h, by simp⟩
    · rw [if_neg h1] at h
      injection h with h
      refine ⟨_, h.symm, pathOk_append (hsub _ fun _ h => h) ?_, by simp⟩
      intro p hp
      obtain rfl := List.mem_singleton.mp hp
      split
      · rename_i hw
        have hw := hw.2.2
        match b, hw with
        | [x, y], hw =>
          refine ⟨?_, ?_⟩
          · refine drive_ok (u := u) ?_
            simp only [isWindowsDriveLetter, Bool.and_eq_true] at hw
            simp [isWindowsDriveLetter, hw.1]
          · intro c hcm
            simp only [List.set_cons_succ, List.set_cons_zero, List.mem_cons, List.not_mem_nil, or_false] at hcm
            rcases hcm with rfl | rfl
            · exact hb _ (by simp)
            · exact ⟨by decide, by decide, fun _ => by decide⟩
      · refine ⟨?_, hb⟩
        rw [singleDot_iff] at h1
        unfold DotSegment
        simp only [List.mem_cons, List.not_mem_nil, or_false] at h1 hd ⊢
        tauto

end Verif.Proof.UrlValid
