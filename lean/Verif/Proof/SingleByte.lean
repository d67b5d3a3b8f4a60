import Verif.Proof.LegacyRun
import Verif.Proof.TablesSingle
/- Single-byte coders. -/
namespace Verif.Proof.SingleByte
open Verif.Model.Coder Verif.Model.Table Verif.Model.Tables Verif.Model.Legacy Verif.Proof.CoderRun Verif.Proof.Utf8Coder
open Verif.Proof.Tables Verif.Proof.LegacyRun

theorem single_plain (t0 t1 : Table) : Plain (singleE t0 t1) := by
  refine ⟨rfl, fun c => ?_⟩
  simp only [singleE]
  split
  · exact Or.inr (Or.inl ⟨_, rfl⟩)
  split
  · exact Or.inr (Or.inr ⟨_, rfl⟩)
  · exact Or.inr (Or.inl ⟨_, rfl⟩)

theorem single_codes {t t0 t1 : Table} (ha : Agree t t0 t1) (hs : t.size = 128) {c : Nat} {bs : List Nat}
    (h : singleE t0 t1 () (.val c) = some (.bytes bs, (), [])) : Codes (singleD t) () bs c := by
  simp only [singleE] at h
  split at h
  · cases h
    apply codes1
    have e : c % 256 = c := by omega
    simp only [singleD, e]
    rw [if_pos (by omega)]
  · split at h
    · cases h
    · rename_i p hp
      cases h
      obtain ⟨h1, h2⟩ := ha.pointer hp
      apply codes1
      have e : (p + 0x80) % 256 % 256 = p + 0x80 := by omega
      simp only [singleD, e]
      rw [if_neg (by omega), show p + 0x80 - 0x80 = p by omega, h1]

/-- A decoder that looks at one byte at a time. -/
def ByteD (dec : Run Unit) : Prop :=
  dec () .eoq = some (.finished, (), []) ∧ ∀ b, (∃ c, dec () (.val b) = some (.points [c], (), [])) ∨
    ∃ cp, dec () (.val b) = some (.error cp, (), [])

theorem byteD_fatal {dec : Run Unit} (hp : ByteD dec) : ∀ (b : List Nat) (fuel : Nat) (o : List Nat) (st : Unit) (q out : Queue),
    processQueue false dec .fatal fuel () (qq b) (outAt o false) = .stop (.finished, st, q, out) →
    ∃ s : List Nat, List.Forall₂ (fun b c => dec () (.val b) = some (.points [c], (), [])) b s ∧
      out = outAt (o ++ s) true
  | b, 0, o, st, q, out, h => by simp [processQueue] at h
  | [], fuel + 1, o, st, q, out, h => by
    rw [processQueue_finish read_nil hp.1] at h
    cases h
    exact ⟨[], .nil, by simp⟩
  | b :: bs, fuel + 1, o, st, q, out, h => by
    rw [processQueue, read_cons] at h
    dsimp only at h
    rcases hp.2 b with ⟨c, e⟩ | ⟨cp, e⟩
    · rw [processItem_cont (qq bs) o false e (by simp) (Or.inr (by simp))] at h
      dsimp only at h
      rw [if_pos rfl] at h
      obtain ⟨s, h1, h2⟩ := byteD_fatal hp bs fuel _ st q out h
      exact ⟨c :: s, .cons e h1, by rw [h2]; simp [out1]⟩
    · simp [processItem, e] at h

theorem single_byteD (t : Table) : ByteD (singleD t) := by
  refine ⟨rfl, fun b => ?_⟩
  simp only [singleD]
  split
  · exact Or.inl ⟨_, rfl⟩
  split
  · exact Or.inr ⟨_, rfl⟩
  · exact Or.inl ⟨_, rfl⟩

theorem single_back {t t0 t1 : Table} (hi : Inverts t t0 t1) (hs : t.size = 128) (hc : ∀ p c, codePoint t p = some c → 0x7F < c)
    {b c : Nat} (hb : b < 256) (h : singleD t () (.val b) = some (.points [c], (), [])) :
    singleE t0 t1 () (.val c) = some (.bytes [b], (), []) := by
  have e : b % 256 = b := by omega
  simp only [singleD, e] at h
  split at h
  · cases h
    simp only [singleE]
    rw [if_pos (by omega), e]
  · split at h
    · cases h
    · rename_i cp hcp
      cases h
      have := hi (b - 0x80) c (by omega) hcp
      simp only [singleE]
      rw [if_neg (by have := hc _ _ hcp; omega), this]
      dsimp only
      rw [show (b - 0x80 + 0x80) % 256 = b by omega]

theorem user_plain : Plain userDefinedE := by
  refine ⟨rfl, fun c => ?_⟩
  simp only [userDefinedE]
  split
  · exact Or.inr (Or.inl ⟨_, rfl⟩)
  split
  · exact Or.inr (Or.inl ⟨_, rfl⟩)
  · exact Or.inr (Or.inr ⟨_, rfl⟩)

theorem user_codes {c : Nat} {bs : List Nat} (h : userDefinedE () (.val c) = some (.bytes bs, (), [])) :
    Codes userDefinedD () bs c := by
  simp only [userDefinedE] at h
  split at h
  · cases h
    apply codes1
    have e : c % 256 = c := by omega
    simp only [userDefinedD, e]
    rw [if_pos (by omega)]
  split at h
  · cases h
    apply codes1
    have e : (c - 0xF780 + 0x80) % 256 = c - 0xF780 + 0x80 := by omega
    simp only [userDefinedD, e]
    rw [if_neg (by omega)]
    have : 0xF780 + (c - 0xF780 + 0x80) - 0x80 = c := by omega
    rw [this]
  · cases h

theorem user_byteD : ByteD userDefinedD := by
  refine ⟨rfl, fun b => ?_⟩
  simp only [userDefinedD]
  split
  · exact Or.inl ⟨_, rfl⟩
  · exact Or.inl ⟨_, rfl⟩

theorem user_back {b c : Nat} (hb : b < 256) (h : userDefinedD () (.val b) = some (.points [c], (), [])) :
    userDefinedE () (.val c) = some (.bytes [b], (), []) := by
  have e : b % 256 = b := by omega
  simp only [userDefinedD, e] at h
  split at h
  · cases h
    simp only [userDefinedE]
    rw [if_pos (by omega), e]
  · have h : 0xF780 + b - 0x80 = c := by simpa using h
    simp only [userDefinedE]
    rw [if_neg (by omega), if_pos (by omega), show (c - 0xF780 + 0x80) % 256 = b by omega]

/-- The code points of a single-byte table lie outside ASCII. -/
theorem high_of {t : Table} (h : allFrom (fun k => Nat.ble t.size k || Nat.blt 0x7F (t.get k)) 7 0 = true)
    (hs : t.size = 128) : ∀ p c, codePoint t p = some c → 0x7F < c := by
  intro p c hp
  obtain ⟨h1, h2, _⟩ := codePoint_some hp
  have := below h (by omega) _ h1
  rw [← h2]
  simpa [Nat.blt_eq] using this

end Verif.Proof.SingleByte
