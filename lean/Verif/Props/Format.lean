import Verif.Lemmas.Formats
import Verif.Props.Framing

/-!
C53: the data accepted for an object of a class are exactly those with the wire format of the class.
-/

namespace Avb

theorem readAs_format (d : RCtx) (k : Cls) (p : Bytes) :
    (∃ o, Obj.readAs d k p = .ok (o, [])) ↔ k.format d p := by
  by_cases hk : k = .TRKG
  · subst hk
    exact ⟨fun ⟨o, h⟩ => absurd h C09_trackgroup, fun h => h.elim⟩
  · exact (Obj.readAs_reads d k hk).whole (Obj.readAs_strict d k hk) p

/-- C53: an object is loaded exactly if the data of its chunk have the format of its class. -/
theorem C53_format {f : AvbFile} {index : Nat} {k : Cls} {payload : Bytes}
    (h : HasChunk f index k.id payload) :
    (∃ o, readObject f index = .ok (some o)) ↔ k.format f.ctx payload := by
  rw [← readAs_format]
  exact ⟨fun ⟨o, ho⟩ => ⟨o, (C47_accepted h o).1 ho⟩, fun ⟨o, ho⟩ => ⟨o, (C47_accepted h o).2 ho⟩⟩

/-- C53: all other data are refused with an exception. -/
theorem C53_refused {f : AvbFile} {index : Nat} {k : Cls} {payload : Bytes}
    (h : HasChunk f index k.id payload) (hf : ¬ k.format f.ctx payload) :
    ∃ e, readObject f index = .error e :=
  readObject_refused h fun o ho => hf ((C53_format h).1 ⟨o, ho⟩)

/-- C53: what is written for an object has the format of its class. -/
theorem C53_written {c : WCtx} {d : RCtx} (hl : Linked c d) {x : Obj} (hx : x.Readable)
    {bs : Bytes} (hw : x.write c = .ok ((), bs)) : x.cls.format d bs := by
  refine (readAs_format d x.cls bs).1 ⟨x.norm c, ?_⟩
  have := C06_read_back hl hx hw []
  rwa [List.append_nil] at this

/-- C53: the formats can be told apart from what follows: data with the format of a class are never
the beginning of longer data with it. -/
theorem C53_prefix_free {d : RCtx} {k : Cls} {p q : Bytes} (hp : k.format d p)
    (hq : k.format d (p ++ q)) : q = [] := by
  obtain ⟨o, ho⟩ := (readAs_format d k p).2 hp
  obtain ⟨o', ho'⟩ := (readAs_format d k (p ++ q)).2 hq
  rw [C09_longer ho q] at ho'
  injection ho' with h
  injection h

/-- The data of a tracker parameter with two bytes of settings have its format; with a negative size
of the settings they have not, whatever follows.  A negative number of items of a parameter list is
in order and means none. -/
example :
    (∃ o, readObject (exChunkFile .little (Cls.id .TKPA) [2, 1, 2, 0, 9, 8, 3]) 1 = .ok (some o)) ∧
    (∀ l : Bytes, l.length < 100 → ∃ e,
      readObject (exChunkFile .little (Cls.id .TKPA) ([2, 1, 255, 255] ++ l)) 1 = .error e) ∧
    (∃ o, readObject (exChunkFile .big (Cls.id .PRLS) [2, 1, 255, 0, 0, 0, 3]) 1 = .ok (some o)) := by
  refine ⟨?_, fun l hl => ?_, ?_⟩
  · refine (C53_format (exChunkFile_chunk .little rfl (by decide))).2 ?_
    exact ⟨[2, 1, 2, 0, 9, 8], [3], rfl,
      ⟨[2], _, rfl, rfl, [1], _, rfl, rfl, [2, 0, 9, 8], [], rfl,
        ⟨2, [9, 8], by decide, by decide, by decide, by decide, rfl⟩, rfl⟩, [3], [], rfl, rfl, rfl⟩
  · refine C53_refused (k := .TKPA) (exChunkFile_chunk .little rfl (by simp; omega)) ?_
    rintro ⟨p, _, h1, ⟨_, _, rfl, rfl, _, _, rfl, rfl, _, _, rfl, ⟨v, q, hl, hu, rfl, hb, _⟩, _⟩, _⟩
    have h2 : unpackNat .little (packNat .little 2 (v % (2 ^ (8 * 2) : Int)).toNat) = 65535 := by
      have h3 := congrArg (fun l => unpackNat .little ((l.drop 2).take 2)) h1
      have h4 : (packNat .little 2 (v % (2 ^ (8 * 2) : Int)).toNat).length = 2 := by simp
      generalize hx : packNat .little 2 (v % (2 ^ (8 * 2) : Int)).toNat = x at h4 ⊢
      have h5 : ∀ y : Bytes, (x ++ y).take 2 = x := fun y => by rw [← h4, List.take_left]
      rw [show (exChunkFile .little (Cls.id .TKPA) ([2, 1, 255, 255] ++ l)).ctx.bo = .little from rfl,
        show IntTy.s16.width = 2 from rfl, hx] at h3
      simp [h5] at h3
      rw [← h3]
      decide
    rw [unpackNat_packNat] at h2
    simp [IntTy.hi, IntTy.width, IntTy.signed] at hu
    omega
  · refine (C53_format (exChunkFile_chunk .big rfl (by decide))).2 ?_
    exact ⟨[2, 1, 255, 0, 0, 0], [3], rfl,
      ⟨[2], _, rfl, rfl, [1], _, rfl, rfl, [255, 0, 0, 0], [], rfl,
        ⟨-16777216, [], by decide, by decide, by decide, by simp [Fmt.rep, Fmt.nil]⟩, rfl⟩, [3], [], rfl, rfl, rfl⟩

/-- C53_written: the bytes of a filler have its format. -/
example (bo : BO) : ∃ bs, exFill.write (exWrite bo 4) = .ok ((), bs) ∧ Cls.format (exRead bo 4) .FILL bs := by
  obtain ⟨bs, h⟩ := Wr.isOk_iff.1 (by cases bo <;> decide +kernel : (exFill.write (exWrite bo 4)).isOk = true)
  exact ⟨bs, h, C53_written (ex_linked bo (by decide)) (x := exFill) (textsOK_short (by decide)) h⟩

end Avb
