import Verif.Props.P256
import Verif.Props.Programs
/-!
# C91: the two programs with the real libraries
-/
namespace Migp.Props
open P256 Spec Mutator

/-- C91: the two programs as they are shipped, with the real libraries and nothing assumed of them: with any key below the group
order but one, the server program without `-config` reads every line of its file, and then the client program
prints, for every credential of its file, the answer that looking it up in the list of what has been stored gives, unless 20-byte
tags coincide, or the credential hashes to the point at infinity, or a blind is zero. -/
theorem C91_programs (k : ℕ) (hk : k < P256.q) (hb : k ≠ badKey)
    {args : ServerArgs} {stale : Nat → Nat → UInt8} {chunk : Nat → Nat} {file : Bytes} (hcfg : args.config = none)
    (hd : args.dumpConfig = false) (hf : args.infile = some file) (hm : args.metadata.length ≤ 8160)
    (hn0 : 0 ≤ args.numVariants) (hn1 : args.numVariants ≤ maxSliceCap)
    {parts : List (Option (Bytes × Bytes))} (hp : ReadsAs file parts) (hlen : ∀ x ∈ credentials parts, x.2.length ≤ 49152) :
    ∃ (s : Server) (variants : Bytes → List Bytes) (kv : KV), s.suite = P256.suite ∧
      (∀ p, mutate dasRules p args.numVariants = .ok (variants p)) ∧
      serverMain P256.ext args ⟨k⟩ stale chunk =
        .serving s kv (credentials parts).length (parts.length - (credentials parts).length) ∧
      let db := storedAll args.metadata args.numVariants args.usernameVariant variants (credentials parts)
      ∀ {cargs : ClientArgs} {rand : Nat → (S : Suite) → ZMod S.q} {stale1 stale2 : Nat → Nat → UInt8}
        {chunk' : Nat → Nat} {file' : Bytes}, cargs.config = none → cargs.dumpConfig = false → cargs.infile = some file' →
        ∀ {parts' : List (Option (Bytes × Bytes))}, ReadsAs file' parts' → (∀ i, rand i P256.suite ≠ 0) →
        (∀ x ∈ credentials parts', P256.hashToElement (Spec.oprfInput P256.ext 1 x.1 x.2) ≠ 0) →
        (∀ x ∈ credentials parts', ∀ y ∈ db, ¬ TagCollision P256.ext s y x.1 x.2) →
        clientMain P256.ext cargs (deliver s kv stale1 (ascii "/config") [])
            (fun _ => deliver s kv stale1 (ascii "/evaluate")) rand stale2 chunk' =
          { stdout := (credentials parts').flatMap (fun x => idealLine cargs.showPassword db x.1 x.2),
            warned := false, exit := .ok } := by
  obtain ⟨s, hs⟩ := (C91_keys.1 k).mpr hk
  have ht : Spec.tweak s.suite s.privateKey ≠ 0 := fun e => hb ((scalar_zero hk).mp ((scalar_eq hs).mp e))
  obtain ⟨hsuite, -⟩ := server_suite hs
  have hcfg' : serverConfig P256.ext args.config ⟨k⟩ stale = some (DefaultServerConfig ⟨k⟩) := by rw [hcfg]; rfl
  have h33 : s.suite.elemLen = 33 := by rw [hsuite]; rfl
  obtain ⟨variants, kv, hv, h1, h2⟩ := C55_load_short (chunk := chunk) hcfg' hs hd hf (by show (0 : Int) ≤ 20; decide)
    (by show (20 : Int) ≤ 32; decide) ht hm hn0 hn1 hp hlen
  refine ⟨s, variants, kv, hsuite, hv, h1, ?_⟩
  intro db cargs rand stale1 stale2 chunk' file' hcc hcd hcf parts' hp' hr he hno
  obtain ⟨variants', kv', hv', h1', h2'⟩ := C60_end_to_end (chunk := chunk) (stale1 := stale1) (stale2 := stale2) (chunk' := chunk')
    (rand := rand) hcfg' hs hd hf (by show (0 : Int) ≤ 20; decide)
    (by show (20 : Int) ≤ 32; decide) ht hm hn0 hn1 hp hlen h33 hcc hcd hcf hp' (by rw [hsuite]; exact hr) (by
      intro x hx e
      rw [hsuite] at e
      exact he x hx ((EmbeddingLike.map_eq_zero_iff (f := P256.ops.dlog.symm)).mp e))
  have evs : variants' = variants := funext fun p => by
    have := (hv' p).symm.trans (hv p)
    injection this
  rw [h1] at h1'
  injection h1' with e1 e2
  subst evs e2
  exact h2' hno

/-- C91_programs: the server program with key 7 on a file with a credential and a broken line: one credential is stored, one line is counted
as bad, and a client program with an empty file prints nothing; `C60_example` has a credential asked for. -/
example (stale : Nat → Nat → UInt8) (chunk : Nat → Nat) (rand : Nat → (S : Suite) → ZMod S.q) (hr : ∀ i, rand i P256.suite ≠ 0) :
    ∃ s kv, serverMain P256.ext ⟨none, false, ascii "A", 2, false, some (ascii "user:password1\r\nbroken\n")⟩ ⟨7⟩ stale chunk =
        .serving s kv 1 1 ∧
      clientMain P256.ext ⟨none, false, false, some []⟩ (deliver s kv stale (ascii "/config") [])
          (fun _ => deliver s kv stale (ascii "/evaluate")) rand stale chunk = ⟨[], false, .ok⟩ := by
  obtain ⟨s, variants, kv, -, -, h1, h2⟩ := C91_programs 7 seven_lt bad_ne_7
    (args := ⟨none, false, ascii "A", 2, false, some (ascii "user:password1\r\nbroken\n")⟩) (stale := stale) (chunk := chunk)
    rfl rfl rfl (by decide) (by decide) (by decide) example_reads.1 (by
      intro x hx
      have : x = (ascii "user", ascii "password1") := by simpa [credentials] using hx
      rw [this]; decide)
  refine ⟨s, kv, h1, ?_⟩
  exact h2 (cargs := ⟨none, false, false, some []⟩) (file' := []) (parts' := []) rfl rfl rfl
    ⟨[], [], .empty, .nil, .nil⟩ hr (by simp [credentials]) (by simp [credentials])

end Migp.Props
