import Verif.Proofs.HeadTextParse
import Verif.Props.Overloads

/-!
# C96: the declarations of the overloads of `Write` and `Read`
-/

namespace ISD

open Head

/-- **C96**. ISD_EntityWriter.h and ISD_EntityReader.h are classes with members, methods and specialisations (`Head.parse`). Each declares exactly the specialisations that its source file defines
(C92): one for every container of every data type, with a value of this type as its last parameter — constant in the writer, not constant in the reader — and none for anything else. -/
theorem C96_declared_iff_defined :
    ∃ hw hr ws rs, parse writerFrame (tokens writerText) = some hw ∧ parse readerFrame (tokens readerText) = some hr ∧
      Over.parse Over.writerCtor (Over.text Over.writerLines) = some ws ∧ Over.parse Over.readerCtors (Over.text Over.readerLines) = some rs ∧
      (hw.decls.map Decl.ty).Nodup ∧ (hr.decls.map Decl.ty).Nodup ∧
      (∀ d ∈ hw.decls, d.par = d.ty ∧ d.isConst = true) ∧ (∀ d ∈ hr.decls, d.par = d.ty ∧ d.isConst = false) ∧
      (∀ ty, (ty ∈ hw.decls.map Decl.ty ↔ ty ∈ ws.map Over.Fn.ty) ∧ (ty ∈ hr.decls.map Decl.ty ↔ ty ∈ rs.map Over.Fn.ty)) ∧
      ∀ c name, ((c, name) ∈ hw.decls.map Decl.ty ↔ ∃ d ∈ allTypes, d.name.toList = name) ∧ ((c, name) ∈ hr.decls.map Decl.ty ↔ ∃ d ∈ allTypes, d.name.toList = name) := by
  obtain ⟨ws, rs, h1, h2, -, -, h3⟩ := C92_one_overload_for_each_type
  have ht : ∀ b, (order.map (declOf b)).map Decl.ty = order := fun b => by
    rw [List.map_map, show Decl.ty ∘ declOf b = id from rfl, List.map_id]
  have hp : ∀ b, ∀ d ∈ order.map (declOf b), d.par = d.ty ∧ d.isConst = b := by
    intro b d hd
    obtain ⟨t, -, rfl⟩ := List.mem_map.1 hd
    exact ⟨rfl, rfl⟩
  refine ⟨writerHeader, readerHeader, ws, rs, parse_writer, parse_reader, h1, h2, ?_, ?_, hp true, hp false, ?_, ?_⟩
  · exact (ht true).symm ▸ order_nodup
  · exact (ht false).symm ▸ order_nodup
  · rintro ⟨c, name⟩
    show (_ ∈ (order.map (declOf true)).map Decl.ty ↔ _) ∧ (_ ∈ (order.map (declOf false)).map Decl.ty ↔ _)
    rw [ht, ht, mem_order, (h3 c name).1, (h3 c name).2]
    exact ⟨Iff.rfl, Iff.rfl⟩
  · intro c name
    show (_ ∈ (order.map (declOf true)).map Decl.ty ↔ _) ∧ (_ ∈ (order.map (declOf false)).map Decl.ty ↔ _)
    rw [ht, ht, mem_order]
    exact ⟨Iff.rfl, Iff.rfl⟩

/-- **C96**, writing. A call `writer.Write( key, length, x )` with a container of a data type compiles and links — it is declared in the header and defined in the source file — and does what the model
does (`writeTyped`, of which the other properties speak). -/
theorem C96_write (d : DataType) (hd : d ∈ allTypes) (c : Container) (v : c.Val d.Val) (key : Bytes) (n : Nat) :
    Head.write writerText (Over.text Over.writerLines) key (n + 2) (c, d.name.toList) (Over.Obj.of (K := d.kind) c v) = some (writeTyped d c key v) := by
  obtain ⟨ws, rs, h1, -, -, -, h3⟩ := C92_one_overload_for_each_type
  have hm : (c, d.name.toList) ∈ ws.map Over.Fn.ty := (h3 c _).1.2 ⟨d, hd, rfl⟩
  obtain ⟨f, hf, he⟩ := List.mem_map.1 hm
  have hx : writerHeader.declares true (c, d.name.toList) = true := (declares_iff ..).trans (decide_eq_true ((mem_order ..).2 ⟨d, hd, rfl⟩))
  simp only [Head.write, parse_writer, h1, Option.bind_eq_bind, Option.bind_some]
  rw [if_pos ⟨hx, f, hf, he⟩, C92_write_text h1 d hd c v key n]
  rfl

/-- **C96**, reading. Likewise for `reader.Read( key, length, x )`. -/
theorem C96_read (d : DataType) (hd : d ∈ allTypes) (c : Container) (dest : c.Val d.Val) (env : REnv) (key : Bytes) (n : Nat) :
    Head.read readerText (Over.text Over.readerLines) env key (n + 2) (c, d.name.toList) (Over.Obj.of (K := d.kind) c dest) =
      some (do let r ← readTyped env d c key dest
               return r.map (Over.Obj.of c)) := by
  obtain ⟨ws, rs, -, h1, -, -, h3⟩ := C92_one_overload_for_each_type
  have hm : (c, d.name.toList) ∈ rs.map Over.Fn.ty := (h3 c _).2.2 ⟨d, hd, rfl⟩
  obtain ⟨f, hf, he⟩ := List.mem_map.1 hm
  have hx : readerHeader.declares false (c, d.name.toList) = true := (declares_iff ..).trans (decide_eq_true ((mem_order ..).2 ⟨d, hd, rfl⟩))
  simp only [Head.read, parse_reader, h1, Option.bind_eq_bind, Option.bind_some]
  rw [if_pos ⟨hx, f, hf, he⟩, C92_read_text h1 d hd c dest env key n]
  rfl

/-- **C96**, other types. A call with anything that is not a container of a data type does not compile: it would use the template itself, of which the assertion fails. -/
theorem C96_other_types_do_not_compile {K : Kind} (c : Container) (name : Cpp.Name) (hn : ∀ d ∈ allTypes, d.name.toList ≠ name) (x : Over.Obj K) (env : REnv) (key : Bytes) (n : Nat)
    (source : List Char) :
    Head.write writerText source key n (c, name) x = none ∧ Head.read readerText source env key n (c, name) x = none := by
  have hx : ¬ (c, name) ∈ order := fun h => by
    obtain ⟨d, hd, e⟩ := (mem_order c name).1 h
    exact hn d hd e
  have h1 : writerHeader.declares true (c, name) = false := (declares_iff ..).trans (decide_eq_false hx)
  have h2 : readerHeader.declares false (c, name) = false := (declares_iff ..).trans (decide_eq_false hx)
  constructor
  · simp only [Head.write, parse_writer, Option.bind_eq_bind, Option.bind_some]
    cases Over.parse Over.writerCtor source with
    | none => rfl
    | some ws => exact if_neg fun h => by rw [h1] at h; exact nomatch h.1
  · simp only [Head.read, parse_reader, Option.bind_eq_bind, Option.bind_some]
    cases Over.parse Over.readerCtors source with
    | none => rfl
    | some rs => exact if_neg fun h => by rw [h2] at h; exact nomatch h.1

/-- **C96**, new objects. The members that the headers declare and initialise make a new writer and reader the ones with which the model starts: no section open, no array (`0` entries, index `~0`). -/
theorem C96_new_objects (addr position stop : Nat) :
    newWriter writerText addr position = some (EWriter.create addr position) ∧ newReader readerText addr stop = some (EReader.create addr stop) := by
  constructor
  · rw [newWriter, parse_writer]; rfl
  · rw [newReader, parse_reader]; rfl

/-- The hypotheses are met: a vector of `fvec3` can be written and read, and one of `long` cannot. -/
example : (∃ p, Head.write (K := fvec3Type.kind) writerText (Over.text Over.writerLines) [107] 2 (.vector, "fvec3".toList) (Over.Obj.of .vector ([] : List _)) = some p) ∧
    Head.write (K := fvec3Type.kind) writerText (Over.text Over.writerLines) [107] 2 (.vector, "long".toList) (Over.Obj.of .vector ([] : List _)) = none := by
  refine ⟨⟨_, C96_write fvec3Type (by decide) .vector _ [107] 0⟩, (C96_other_types_do_not_compile .vector _ (by decide) _ ⟨fun _ => true, Vector.replicate 40 0⟩ [107] 2 _).1⟩

end ISD
