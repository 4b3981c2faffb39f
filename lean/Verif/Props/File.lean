import Verif.Props.Loader
import Verif.Props.Packet
import Verif.Props.Storing

/-!
# C74, C75: whole files
-/

namespace ISD

open Loader Packet

variable {V : Type} {M : Managed V} {S : ClassSpec V} {c : HashCore} {H : Bytes → Bytes}

/-! ## C74: an entity file -/

/-- The stream set up for a file consists of the data in front of its hash. -/
theorem setsUp_data (hc : Sha.Computes c H) {os : OS} {path : List Char} {u : UUID} {rs : List ReadRes} {is : RStream}
    (h : SetsUp c os path u rs is) : Loads c os path u rs (.status .ok) false ∧
      ∃ data, is = ⟨data, 0, false⟩ ∧ os.file (filePath path u) = some (data ++ H data) ∧ (H data).length = 32 := by
  cases h with
  | @stream f _ buffer h hs hl ha hr hd =>
    have run := Loads.reads (c := c) h hs hl ha hr
    rw [hd] at run
    refine ⟨run, ?_⟩
    obtain ⟨-, hiff⟩ := C47_ok_iff hc run
    obtain ⟨-, -, -, data, hf, h32⟩ := hiff.1 rfl
    rw [h] at hf
    cases hf
    rcases readLoop_result rfl hr rfl (Nat.zero_le _) (by simp) (by simp) with ⟨h1, -⟩ | ⟨h1, -⟩
    · injection h1 with h1
      subst h1
      have : (data ++ H data).length - 32 = data.length := by rw [List.length_append]; omega
      rw [this, List.take_left]
      exact ⟨data, rfl, h, h32⟩
    · cases h1

/-- **C74.** An object was written to an empty stream and `Write` returned true; the file of an id holds the bytes of that stream followed by their
hash. Then the loader, on every run of which no system call fails, however the reads are split, returns `Ok`; and the stream it sets up is at the
start of the object: reading it into any object of the class gives the contents that were written and consumes all the data. -/
theorem C74_stored_file_loads (hM : IsClass M S) (hc : Sha.Computes c H) (v : V) (hv : S.wf v) (w : EWriter) (hw : w.Idle) (s : WStream) (hs : Ready s)
    (hempty : s.content = []) (hfl : s.flip = false) (hroom : HasRoom S v s) (fresh : Bytes → Nat) (w' : EWriter) (s' : WStream)
    (e : M.write fresh v (w, s) = .ok true (w', s')) (h32 : (H s'.content).length = 32) (os : OS) (path : List Char) (u : UUID)
    (hfile : os.file (filePath path u) = some (s'.content ++ H s'.content)) (hsize : os.sizeOk = true) (halloc : os.allocOk = true)
    {rs : List ReadRes} (hrs : ReadRes.failed ∉ rs) :
    (∀ o leaks, Loads c os path u rs o leaks → o = .status .ok ∧ leaks = false ∧ ∃ is, SetsUp c os path u rs is) ∧
    (∀ is, SetsUp c os path u rs is → ∀ (env : REnv) (fresh : Bytes → Nat) (r : EReader) (L : Leftover) (dest : V), r.Idle → S.wf dest → S.destOk dest →
      GrantsUpTo (4 * is.size) env → ∃ v', M.readInPlace L env fresh ((r, is), dest) = .ok true ((r, { is with pos := is.size }), v') ∧
        S.wf v' ∧ S.rel .exact v' v) := by
  obtain ⟨r0, w2, s2, b, e2, hr0, -⟩ := C64_write_accepts_exactly_storable_objects hM v hv w hw s hs hroom fresh
  rw [e] at e2
  cases e2
  unfold HasRoom at hroom
  have hst : Storable S s.flip v := ⟨hv, hr0.mp rfl, by omega⟩
  obtain ⟨s3, e3, -, -, hx⟩ := storedAs_nodes hM hst w hw s hs rfl fresh (by omega)
  rw [e] at e3
  cases e3
  have hback := fun dest hd hdo => readsBack hM s.flip v hst _ (storedAs_nodes hM hst) dest hd hdo
  have hsz : ((S.nodes v).bytes s.flip).length < 2 ^ 59 := by omega
  rw [hempty, List.nil_append] at hx
  generalize (S.nodes v).bytes s.flip = x at hx hback hsz
  rw [hfl] at hback
  refine ⟨fun o leaks run => ?_, fun is h env fresh r L dest hr hd hdo hB => ?_⟩
  · obtain ⟨-, hiff⟩ := C47_ok_iff hc run
    have ho := hiff.2 ⟨hsize, halloc, hrs, _, hfile, h32⟩
    subst ho
    have hl := C47_handle_leaks hfile run
    have hlen : ¬ (s'.content ++ H s'.content).length < 32 := by rw [List.length_append]; omega
    refine ⟨rfl, ?_, ?_⟩
    · cases leaks with
      | false => rfl
      | true =>
        rcases hl.1 rfl with h | h | h | h
        · rw [hsize] at h; cases h
        · exact absurd h hlen
        · rw [halloc] at h; cases h
        · exact absurd h hrs
    · generalize ho : Loader.Outcome.status Status.ok = o at run
      cases run with
      | noFile h => cases ho
      | noSize h h2 => cases ho
      | tooSmall h h2 h3 => cases ho
      | noMemory h h2 h3 h4 => cases ho
      | @reads f rs r h h2 h3 h4 hr =>
        cases r with
        | ub => cases ho
        | cantRead => cases ho
        | full buffer => exact ⟨_, .stream h h2 h3 h4 hr ho.symm⟩
  · obtain ⟨-, data, rfl, hf, h32'⟩ := setsUp_data hc h
    rw [hfile] at hf
    injection hf with hf
    have hdata : s'.content = data := by
      have hl := congrArg List.length hf
      rw [List.length_append, List.length_append, h32, h32'] at hl
      exact (List.append_inj hf (by omega)).1
    rw [hx] at hdata
    subst hdata
    obtain ⟨v', e', hw', hrel⟩ := hback dest hd hdo [] [] env fresh r L (by rw [List.append_nil]; exact hsz) hr
      (by rw [List.append_nil]; exact hB)
    rw [List.append_nil] at e'
    exact ⟨v', e', hw', hrel⟩

/-- Files that were changed: the loader refuses a file whose data were changed, unless the change kept the hash (a collision), and every file whose
stored hash was changed. -/
theorem C74_changed_files (hc : Sha.Computes c H) (data changed tail : Bytes) (h32 : (H data).length = 32) (ht : tail.length = 32) (os : OS)
    (path : List Char) (u : UUID) {rs : List ReadRes} {o : Loader.Outcome} {leaks : Bool} (run : Loads c os path u rs o leaks) :
    (changed ≠ data → os.file (filePath path u) = some (changed ++ H data) → o = .status .ok → H changed = H data) ∧
    (tail ≠ H data → os.file (filePath path u) = some (data ++ tail) → o ≠ .status .ok) := by
  have key : ∀ a b : Bytes, b.length = 32 → os.file (filePath path u) = some (a ++ b) → o = .status .ok → H a = b := by
    intro a b hb hf ho
    obtain ⟨-, hiff⟩ := C47_ok_iff hc run
    obtain ⟨-, -, -, d, hd, h⟩ := hiff.1 ho
    rw [hf] at hd
    injection hd with hd
    have hl := congrArg List.length hd
    rw [List.length_append, List.length_append, hb, h] at hl
    obtain ⟨rfl, rfl⟩ := List.append_inj hd (by omega)
    rfl
  exact ⟨fun _ hf ho => key _ _ h32 hf ho, fun hne hf ho => hne (key _ _ ht hf ho).symm⟩

/-! ## C75: a packet -/

/-- A packet: the magic, a version byte, a byte of flags of which bit 0 tells that the rest is big endian, three unused bytes, the size of the data, the
id of the entity, the id of its type, and the entity. -/
def packetBytes (bigEndian : Bool) (version otherFlags : Nat) (unused : Bytes) (size : Nat) (id type : UUID) (entity : Bytes) : Bytes :=
  [0x49, 0x53, 0x44, UInt8.ofNat version, UInt8.ofNat (otherFlags * 2 + if bigEndian then 1 else 0)] ++ unused ++ Spec.number bigEndian 8 size ++
    Spec.uuid id ++ Spec.uuid type ++ entity

theorem packet_has {d : Bytes} {p : Nat} {be : Bool} {version other n : Nat} {unused : Bytes} {id type : UUID} {x : Bytes}
    (h : Has d p (packetBytes be version other unused n id type x)) :
    Has d p ([0x49, 0x53, 0x44] ++ (Spec.number false 1 version ++ (Spec.number false 1 (other * 2 + if be then 1 else 0) ++ (unused ++
      Spec.number be 8 n)))) := by
  unfold packetBytes at h
  have e : ∀ n, Spec.number false 1 n = [UInt8.ofNat n] := by
    intro n
    simp [Spec.number, Spec.lsbFirst]
  have h := h.left.left.left
  simp only [List.append_assoc] at h
  rw [e, e]
  exact h

/-- **C75.** A stream that does not flip holds a packet with an entity that was stored in the byte order the packet declares. Then
`FromMemoryStream` returns `Ok`, leaves the stream in that byte order at the entity, and reading it there gives its contents. -/
theorem C75_packets (hM : IsClass M S) (be : Bool) (v : V) (hv : Storable S be v) (x : Bytes) (hx : StoredAs M v be x) (version other : Nat)
    (hversion : version < 256) (hother : other < 128) (unused : Bytes) (hunused : unused.length = 3) (id type : UUID) (n : Nat) (pre post : Bytes)
    (hn : n ≤ 32 + x.length + post.length)
    (hsz : (pre ++ packetBytes be version other unused n id type x ++ post).length < 2 ^ 59) (junk junkPad : Bytes) (hj : junk.length = 3)
    (hjp : junkPad.length = 3) : ∃ is : RStream,
    fromMemoryStream junk junkPad ⟨pre ++ packetBytes be version other unused n id type x ++ post, pre.length, false⟩ = .ok .ok is ∧
    is.data = pre ++ packetBytes be version other unused n id type x ++ post ∧ is.flip = be ∧
    is.pos = pre.length + 48 ∧
    ∀ (env : REnv) (fresh : Bytes → Nat) (r : EReader) (L : Leftover) (dest : V), r.Idle → S.wf dest → S.destOk dest →
      GrantsUpTo (4 * is.size) env → ∃ v', M.readInPlace L env fresh ((r, is), dest) =
        .ok true ((r, { is with pos := (pre ++ packetBytes be version other unused n id type x).length }), v') ∧ S.wf v' ∧ S.rel .exact v' v := by
  have hlen : ∀ x, (packetBytes be version other unused n id type x).length = 48 + x.length := by
    intro x
    have hu : ∀ u, (Spec.uuid u).length = 16 := fun u => scalar_length false .uuid u
    unfold packetBytes
    simp only [List.length_append, number_length, hu, hunused, List.length_cons, List.length_nil]
  have hh := C48_header (d := pre ++ packetBytes be version other unused n id type x ++ post) (p := pre.length) (fl := false)
    (show _ < 2 ^ 60 by omega) [0x49, 0x53, 0x44] unused version (other * 2 + if be then 1 else 0) n rfl hunused hversion
    (by cases be <;> simp <;> omega) (by rw [List.length_append, List.length_append, hlen] at hsz; omega) junk junkPad hj hjp
    (by
      have : decide ((other * 2 + if be then 1 else 0) % 2 = 1) = be := by cases be <;> simp <;> omega
      rw [this, Bool.false_or]
      exact packet_has ⟨pre, post, rfl, rfl⟩)
  have hbe : decide ((other * 2 + if be then 1 else 0) % 2 = 1) = be := by cases be <;> simp <;> omega
  rw [hbe, Bool.false_or, if_neg (fun h => h rfl), Nat.mod_eq_of_lt (by simp only [List.length_append, hlen] at hsz; omega),
    if_neg (by simp only [List.length_append, hlen]; omega)] at hh
  refine ⟨_, hh, rfl, rfl, (by simp only [List.length_append, hlen]; omega), fun env fresh r L dest hr hd hdo hB => ?_⟩
  have hsplit : pre ++ packetBytes be version other unused n id type x ++ post = (pre ++ packetBytes be version other unused n id type []) ++ x ++ post := by
    unfold packetBytes
    simp only [List.append_assoc, List.append_nil]
  have hpos : min (pre.length + 48) (pre ++ packetBytes be version other unused n id type x ++ post).length =
      (pre ++ packetBytes be version other unused n id type []).length := by
    simp only [List.length_append, hlen, List.length_nil]; omega
  have hend : (pre ++ packetBytes be version other unused n id type x).length = (pre ++ packetBytes be version other unused n id type [] ++ x).length := by
    simp only [List.length_append, hlen, List.length_nil]; omega
  have hb := readsBack hM be v hv x hx dest hd hdo (pre ++ packetBytes be version other unused n id type []) post env fresh r L
    (by rw [← hsplit]; exact hsz) hr (by rw [← hsplit]; exact hB)
  obtain ⟨v', e', hw', hrel⟩ := hb
  rw [hpos, hend]
  rw [← hsplit] at e'
  exact ⟨v', e', hw', hrel⟩

/-! ## Non-trivial cases -/

/-- A file that holds an entity with one reference and a flag, read one byte at a time, and loaded with a hash that sums the bytes: it is loaded and
the references come back. -/
example : ∃ rs is v', SetsUp sumCore ⟨fun _ => some (oneRefBlock ++ sumHash oneRefBlock), true, true⟩ [] ⟨0, 0, 0, .replicate 8 0⟩ rs is ∧
    (entityMF refsFields).readInPlace keepAll luckyEnv (fun _ => 0) ((EReader.create 0 0, is), ([], false, ())) =
      .ok true ((EReader.create 0 0, { is with pos := is.size }), v') ∧ (entitySpec refsSpecs).rel .exact v' oneRef := by
  obtain ⟨s', e, -, -, hx⟩ := storedAs_nodes refs_isClass refs_storable (EWriter.create 0 0) ⟨rfl, rfl, rfl, rfl⟩ (demoStream false) (demo_ready false) rfl
    (fun _ => 0) (by decide +kernel)
  have hx : s'.content = oneRefBlock := hx
  obtain ⟨rs, run⟩ := C47_good_file_loads (keepAll_computes sumHash)
    (os := ⟨fun _ => some (oneRefBlock ++ sumHash oneRefBlock), true, true⟩) (path := []) (u := ⟨0, 0, 0, .replicate 8 0⟩) (data := oneRefBlock)
    rfl rfl rfl rfl (fun _ _ => 1) (fun _ m h => ⟨by omega, h⟩)
  have hrs : ReadRes.failed ∉ rs := by
    obtain ⟨-, hiff⟩ := C47_ok_iff (keepAll_computes sumHash) run
    exact (hiff.1 rfl).2.2.1
  obtain ⟨h1, h2⟩ := C74_stored_file_loads (c := sumCore) (H := sumHash) refs_isClass (keepAll_computes sumHash) oneRef refs_storable.1 (EWriter.create 0 0)
    ⟨rfl, rfl, rfl, rfl⟩ (demoStream false) (demo_ready false) (by rfl) rfl (by unfold HasRoom; decide +kernel) (fun _ => 0) _ _ e
    (by rw [hx]; rfl) ⟨fun _ => some (oneRefBlock ++ sumHash oneRefBlock), true, true⟩ [] ⟨0, 0, 0, .replicate 8 0⟩ (by rw [hx]) rfl rfl hrs
  obtain ⟨-, -, is, his⟩ := h1 _ _ run
  obtain ⟨v', e', -, hr⟩ := h2 is his luckyEnv (fun _ => 0) (EReader.create 0 0) keepAll ([], false, ()) ⟨rfl, rfl, rfl, rfl⟩ trivial
    ⟨zero_dest _ .vector, zero_dest _ .none, trivial⟩ (fun _ _ => rfl)
  exact ⟨rs, is, v', his, e', hr⟩

/-- A big endian packet behind two other bytes. -/
example : ∃ is : RStream, fromMemoryStream [0, 0, 0] [0, 0, 0]
    ⟨[1, 2] ++ packetBytes true 1 3 [0, 0, 0] 32 ⟨1, 2, 3, #v[1, 2, 3, 4, 5, 6, 7, 8]⟩ ⟨4, 2, 3, #v[1, 2, 3, 4, 5, 6, 7, 8]⟩
      (((entitySpec refsSpecs).nodes oneRef).bytes true) ++ [], 2, false⟩ = .ok .ok is ∧ is.flip = true ∧ is.pos = 50 := by
  obtain ⟨is, e, -, h2, h3, -⟩ := C75_packets refs_isClass true oneRef ⟨trivial, ⟨base_storable _, base_storable _, trivial⟩, by decide +kernel⟩ _
    (storedAs_nodes refs_isClass ⟨trivial, ⟨base_storable _, base_storable _, trivial⟩, by decide +kernel⟩) 1 3 (by decide) (by decide) [0, 0, 0] rfl
    ⟨1, 2, 3, #v[1, 2, 3, 4, 5, 6, 7, 8]⟩ ⟨4, 2, 3, #v[1, 2, 3, 4, 5, 6, 7, 8]⟩ 32 [1, 2] [] (by decide +kernel) (by decide +kernel) [0, 0, 0] [0, 0, 0] rfl rfl
  exact ⟨is, e, h2, h3⟩

end ISD
