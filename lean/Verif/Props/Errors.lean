import Verif.Lemmas.RaisesAll
import Verif.Props.Chunks

/-!
C64: which exceptions damaged files raise.
-/

namespace Avb

/-- The exceptions that say that the data of an object are not what the class asks for: `struct.error`,
`AssertionError`, `ValueError` with its subclass `UnicodeDecodeError`, `OverflowError`, and for
attributes a bare `Exception`. -/
def DamageOf (k : Cls) (e : Err) : Prop :=
  e ∈ [Err.struct, .assertion, .value, .unicode, .overflow] ∨ (k = .ATTR ∧ e = .exception)

theorem damageOf_iff {k : Cls} {e : Err} : DamageOf k e ↔ e.OfData (decide (k = .ATTR)) := by
  simp only [DamageOf, Err.OfData, List.mem_cons, List.not_mem_nil, or_false, decide_eq_true_eq, or_assoc]

/-- C64: whatever the bytes, reading an object as class `k` raises one of few exceptions. -/
theorem C64_object {d : RCtx} {k : Cls} {bs : Bytes} {e : Err} (h : Obj.readAs d k bs = .error e) :
    DamageOf k e :=
  damageOf_iff.2 (Obj.readAs_raises d k bs e h)

/-- C64: opening a file, up to the loading of its content, raises `struct.error`, `AssertionError` or
`ValueError`, whatever the bytes. -/
theorem C64_table {bytes : Bytes} {e : Err} (h : openTable bytes = .error e) :
    e = .struct ∨ e = .assertion ∨ e = .value := by
  have go : ∀ bo : BO, (if (bytes.drop 2).take 6 ≠ magic then .error .value
      else
        match readHeader bo (bytes.drop 8) with
        | .error e => .error e
        | .ok (hdr, rest) =>
          match scanChunks bo hdr.num_objects (bytes.length - rest.length) rest with
          | .error e => .error e
          | .ok ps => .ok ⟨bo, hdr, 0 :: ps, bytes, bytes.length - rest.length⟩ : Except Err AvbFile) =
        .error e → e = .struct ∨ e = .assertion ∨ e = .value := by
    intro bo h
    split at h
    · cases h; exact .inr (.inr rfl)
    · split at h
      · rename_i h1
        cases h
        exact readHeader_raises (E := fun e => e = .struct ∨ e = .assertion ∨ e = .value) (.inl rfl)
          (.inr (.inl rfl)) _ _ h1
      · split at h
        · rename_i h2
          cases h
          exact scanChunks_raises (E := fun e => e = .struct ∨ e = .assertion ∨ e = .value) (.inl rfl) h2
        · cases h
  unfold openTable at h
  dsimp only at h
  split at h
  · exact go _ h
  · split at h
    · exact go _ h
    · cases h; exact .inr (.inr rfl)

/-- A chunk whose header can be read and whose payload is all there. -/
theorem HasChunk.of_header {f : AvbFile} {index pos : Nat} {id rest : Bytes} {size : Int} (h0 : index ≠ 0)
    (hp : f.positions[index]? = some pos)
    (hr : (rFourcc f.bo >>= fun id => rInt f.bo .u32 >>= fun size => (pure (id, size) : Rd (Bytes × Int)))
      (f.data.drop pos) = .ok ((id, size), rest))
    (hl : (rest.take size.toNat).length = size.toNat) :
    HasChunk f index id (rest.take size.toNat) := by
  obtain ⟨id', m1, h1, h2⟩ := Rd.bind_eq_ok' hr
  obtain ⟨size', m2, h3, h4⟩ := Rd.bind_eq_ok' h2
  cases h4
  unfold rInt at h3
  split at h3
  · cases h3
  · rename_i hm
    have hm : 4 ≤ m1.length := by simpa [IntTy.width] using hm
    injection h3 with h3
    injection h3 with hs hrest
    have hd : f.data.drop pos = (match f.bo with | .little => id.reverse | .big => id) ++ m1 ∧
        id.length = 4 := by
      obtain ⟨d, m0, g1, g2⟩ := Rd.bind_eq_ok' h1
      have g1 : d = (f.data.drop pos).take 4 ∧ m0 = (f.data.drop pos).drop 4 := by
        unfold fread at g1
        split at g1
        · omega
        · injection g1 with g1
          injection g1 with g3 g4
          exact ⟨g3.symm, g4.symm⟩
      obtain ⟨rfl, rfl⟩ := g1
      cases hb : f.bo <;> rw [hb] at g2 <;> cases g2 <;>
        (rw [List.length_drop] at hm
         refine ⟨by simp [-List.drop_drop], ?_⟩
         simp only [List.length_reverse, List.length_take]
         omega)
    have hbytes : packNat f.bo 4 size.toNat = m1.take 4 := by
      rw [← hs]
      have := packNat_unpackNat f.bo (m1.take 4)
      rw [List.length_take, Nat.min_eq_left hm] at this
      simpa [IntTy.width, IntTy.signed] using this
    have hlt : size.toNat < 2 ^ 32 := by
      rw [← hs]
      have := unpackNat_lt f.bo (m1.take 4)
      rw [List.length_take, Nat.min_eq_left hm] at this
      simpa [IntTy.width, IntTy.signed] using this
    refine ⟨h0, hd.2, by omega, pos, rest.drop size.toNat, hp, ?_⟩
    rw [hd.1, hl, hbytes, List.append_assoc, List.append_assoc, List.take_append_drop, ← hrest]
    have : m1 = m1.take 4 ++ m1.drop IntTy.u32.width := (List.take_append_drop 4 m1).symm
    cases f.bo <;> exact congrArg (_ ++ ·) this

theorem Cls.id_of_some {id : Bytes} {k : Cls} (hk : Cls.ofId id = some k) : id = k.id := by
  unfold Cls.ofId at hk
  have := List.find?_some hk
  exact (of_decide_eq_true this).symm

/-- C64: loading object number `index` of any file raises `IndexError` for a number that is not in the
file, `struct.error` or `AssertionError` if the file ends inside the chunk, `NotImplementedError` if no
class has the id of the chunk, and otherwise an exception of the data of its class. -/
theorem C64_read {f : AvbFile} {index : Nat} {e : Err} (h : readObject f index = .error e) :
    (e = .index ∧ f.positions.length ≤ index) ∨
    ((e = .struct ∨ e = .assertion) ∧ ∀ id payload, ¬ HasChunk f index id payload) ∨
    (e = .notImplemented ∧ ∃ id payload, HasChunk f index id payload ∧ ∀ k : Cls, k.id ≠ id) ∨
    (∃ k payload, HasChunk f index (Cls.id k) payload ∧ DamageOf k e) := by
  by_cases hc : ∃ id payload, HasChunk f index id payload
  · obtain ⟨id, payload, hc⟩ := hc
    have h' := h
    rw [hc.read] at h'
    split at h'
    · rename_i hid
      cases h'
      refine .inr (.inr (.inl ⟨rfl, id, payload, hc, fun k hk => ?_⟩))
      rw [← hk, Cls.ofId_id] at hid
      cases hid
    · rename_i k hk
      have hid : id = k.id := Cls.id_of_some hk
      subst hid
      refine .inr (.inr (.inr ⟨k, payload, hc, ?_⟩))
      split at h'
      · rename_i hr
        cases h'
        exact C64_object hr
      · split at h'
        · cases h'
        · cases h'
          exact .inl (by decide)
  · have hn : ∀ id payload, ¬ HasChunk f index id payload := fun id p hp => hc ⟨id, p, hp⟩
    unfold readObject at h
    split at h
    · cases h
    · rename_i h0
      split at h
      · rename_i hp
        cases h
        exact .inl ⟨rfl, List.getElem?_eq_none_iff.1 hp⟩
      · rename_i pos hp
        split at h
        · rename_i hr
          cases h
          refine .inr (.inl ⟨?_, hn⟩)
          exact (RaisesIn.bind rFourcc_raisesIn fun _ => RaisesIn.bind (RaisesIn.int (.inl rfl)) fun _ =>
            RaisesIn.pure : RaisesIn (fun e => e = .struct ∨ e = .assertion) _) _ _ hr
        · split at h
          · cases h
            exact .inr (.inl ⟨.inr rfl, hn⟩)
          · rename_i id size rest hr hl
            exact absurd (HasChunk.of_header h0 hp hr (by simpa using hl)) (hn _ _)

/-- C64: opening a file raises one of eight exceptions, whatever the bytes. -/
theorem C64_open {bytes : Bytes} {e : Err} (h : openFile bytes = .error e) :
    e ∈ [Err.struct, .assertion, .value, .unicode, .overflow, .exception, .index, .notImplemented] := by
  unfold openFile at h
  split at h
  · rename_i h1
    cases h
    rcases C64_table h1 with rfl | rfl | rfl <;> decide
  · split at h
    · rename_i h2
      cases h
      rcases C64_read h2 with ⟨rfl, _⟩ | ⟨rfl | rfl, _⟩ | ⟨rfl, _⟩ | ⟨k, p, _, h3⟩
      any_goals decide
      rcases h3 with h3 | ⟨_, rfl⟩
      · simp only [List.mem_cons, List.not_mem_nil, or_false] at h3 ⊢
        tauto
      · decide
    · cases h

/-- A file of one byte. -/
example : ∃ e, openFile [6] = .error e ∧
    e ∈ [Err.struct, .assertion, .value, .unicode, .overflow, .exception, .index, .notImplemented] := by
  have h : openFile [6] = .error .value := rfl
  exact ⟨_, h, C64_open h⟩

/-- Is this the exception? -/
def raisesErr {α : Type} (r : Except Err α) (e : Err) : Bool :=
  match r with
  | .error e' => decide (e' = e)
  | .ok _ => false

theorem raisesErr_iff {α : Type} {r : Except Err α} {e : Err} (h : raisesErr r e = true) : r = .error e := by
  unfold raisesErr at h
  split at h
  · rw [of_decide_eq_true h]
  · cases h

/-- C64: all of them occur: an attribute list that ends early, with a wrong first byte, with a reference
to an object that is not there or with an unknown type; a path that is not UTF-8; a rate with exponent
400; an object number that is not there; an unknown class. -/
theorem C64_occur :
    readObject (exChunkFile .little (Cls.id .ATTR) [2, 1, 1]) 1 = .error .struct ∧
    readObject (exChunkFile .little (Cls.id .ATTR) [3]) 1 = .error .assertion ∧
    readObject (exChunkFile .little (Cls.id .ATTR) [2, 1, 1, 0, 0, 0, 3, 0, 0, 0, 0, 0, 9, 0, 0, 0, 3]) 1 =
      .error .value ∧
    readObject (exChunkFile .little (Cls.id .ATTR) [2, 1, 1, 0, 0, 0, 7, 0, 0, 0, 0, 0]) 1 =
      .error .exception ∧
    readObject (exChunkFile .little (Cls.id .FILE) [2, 2, 0, 0, 1, 2, 76, 1, 0, 255, 3]) 1 =
      .error .unicode ∧
    readObject (exChunkFile .little (Cls.id .FILL) [2, 3, 0, 0, 0, 0, 0, 0, 0, 0, 1, 0, 1, 0, 0, 0,
      144, 1]) 1 = .error .overflow ∧
    readObject (exChunkFile .little (Cls.id .FILL) []) 2 = .error .index ∧
    readObject (exChunkFile .little (cc 'X' 'Y' 'Z' 'W') []) 1 = .error .notImplemented := by
  refine ⟨raisesErr_iff ?_, raisesErr_iff ?_, raisesErr_iff ?_, raisesErr_iff ?_, raisesErr_iff ?_,
    raisesErr_iff ?_, raisesErr_iff ?_, raisesErr_iff ?_⟩ <;> decide +kernel

end Avb
