import Verif.Proofs.File
import Verif.Proofs.NetworkFail
/-!
# Whole files: sections and network
-/
namespace Boxcars
open Spec

/-- The size restriction under which parsing cannot panic: with overflow checks the offsets must
fit in `CoreParser::col`, which is an `i32`, and on 32-bit platforms the buffer for the frames must
not exceed `isize::MAX` bytes. -/
def Small (env : Env) (data : List Byte) : Prop :=
  Room env data.length ∧ (env.usizeBits = 32 → data.length < 2 ^ 24)

/-- On 64-bit platforms 2 GiB are enough. -/
theorem small64 {env : Env} {data : List Byte} (h : env.usizeBits = 64) (hl : data.length < 2 ^ 31) :
    Small env data := ⟨.of_lt hl, fun h' => by omega⟩

/-- On 64-bit platforms and without overflow checks every slice that can exist is small enough. -/
theorem small64_release {env : Env} {data : List Byte} (h : env.usizeBits = 64)
    (hc : env.checks = false) (hl : data.length < 2 ^ 63) : Small env data := by
  refine ⟨⟨?_, fun h' => by rw [hc] at h'; cases h'⟩, fun h' => by omega⟩
  unfold Env.isizeMax
  rw [h]
  simp only [Nat.reduceSub]
  omega

theorem small_lt {env : Env} {data : List Byte} (h : data.length < 2 ^ 24) : Small env data :=
  ⟨Room.of_lt (by omega), fun _ => h⟩

theorem Small.len {env : Env} {data : List Byte} (h : Small env data) :
    data.length ≤ env.isizeMax := h.1.1

theorem Small.cap {env : Env} {data : List Byte} (h : Small env data) {n : Nat}
    (hn : n ≤ data.length) (hn' : n < 2 ^ 31) : n * env.frameSize ≤ env.isizeMax := by
  have hf := env.frameSize_le
  have h1 : n * env.frameSize ≤ n * 128 := Nat.mul_le_mul (Nat.le_refl n) hf
  unfold Env.isizeMax
  rcases env.usizeBits_eq with h32 | h64
  · have := h.2 h32
    rw [h32]
    norm_num
    omega
  · rw [h64]
    norm_num
    omega

/-- What a file contains is bounded by its size and the limit on lists. -/
theorem fileSecs_sizes {c : Bool} {x : Sections} {data rest : List Byte}
    (h : FileSecs c x data rest) :
    x.body.networkData.length ≤ data.length ∧ x.body.objects.length ≤ 25000 ∧
      x.body.networkData.length < 2 ^ 31 := by
  obtain ⟨bh, bb, _, ⟨b1, b2, b3, b4, b5, b6, b7, b8, b9, _, _, hnd, _, _, _, ho, _, _, _, hb⟩, hd, _⟩ := h
  constructor
  · rw [hd, hb]
    simp only [List.length_append]
    omega
  · refine ⟨?_, hnd⟩
    obtain ⟨_, ho, _⟩ := ho; exact ho

variable {check : CrcCheck} {np : NetworkParse} {env env' : Env} {data : List Byte}

theorem network_iff_of (hs : Small env data) {c : Bool} {x : Sections} {rest : List Byte}
    (h : FileSecs c x data rest) (fs : List Frame) :
    Network.parse env x.header x.body = .ok ⟨fs⟩ ↔ NetworkOf x.header x.body fs := by
  obtain ⟨h1, h2, h3⟩ := fileSecs_sizes h
  exact network_iff env x.header x.body (by omega) h3 (hs.cap h1 h3) fs

theorem network_err_iff_of (hs : Small env data) {c : Bool} {x : Sections} {rest : List Byte}
    (h : FileSecs c x data rest) (e : NetworkError) :
    Network.parse env x.header x.body = .err e ↔
      NetworkFail x.header x.body (tableOf x.body) e := by
  obtain ⟨h1, h2, h3⟩ := fileSecs_sizes h
  exact network_err_iff env x.header x.body (by omega) h3 (hs.cap h1 h3) e

/-- Without any bound on the file. -/
theorem network_ok_of {c : Bool} {x : Sections} {rest : List Byte}
    (h : FileSecs c x data rest) {fs : List Frame}
    (hp : Network.parse env x.header x.body = .ok ⟨fs⟩) : NetworkOf x.header x.body fs := by
  obtain ⟨h1, h2, h3⟩ := fileSecs_sizes h
  exact network_ok env x.header x.body (by omega) h3 hp

theorem network_err_of {c : Bool} {x : Sections} {rest : List Byte}
    (h : FileSecs c x data rest) {e : NetworkError}
    (hp : Network.parse env x.header x.body = .err e) :
    NetworkFail x.header x.body (tableOf x.body) e := by
  obtain ⟨h1, h2, h3⟩ := fileSecs_sizes h
  exact network_err env x.header x.body (by omega) h3 hp

theorem network_agn_of (hs : Small env data) (hs' : Small env' data) {c : Bool} {x : Sections}
    {rest : List Byte} (h : FileSecs c x data rest) :
    Network.parse env x.header x.body = Network.parse env' x.header x.body ∧
    ∀ f, Network.parse env x.header x.body ≠ .fault f := by
  obtain ⟨h1, h2, h3⟩ := fileSecs_sizes h
  exact network_agn env env' x.header x.body (by omega) h3 (hs.cap h1 h3) (hs'.cap h1 h3)

/-- A replay with frames comes from a file with these frames. -/
theorem replayFile_of (hs : data.length ≤ env.isizeMax) {r : Replay} {fs : List Frame}
    (h : parseWith check np env data = .ok r) (hf : r.networkFrames = some ⟨fs⟩) :
    ∃ rest, ReplayFile (decide (check = .always)) r fs data rest := by
  obtain ⟨x, rest, net, h1, _, h2, rfl⟩ := (parseWith_ok_iff_all check np env data hs r).1 h
  have hnet : net = some ⟨fs⟩ := hf
  subst hnet
  refine ⟨rest, x, h1, network_ok_of (env := env) h1 ?_, rfl⟩
  unfold NetOutcome at h2
  cases np with
  | never => cases h2
  | always => obtain ⟨f, h3, h4⟩ := h2; cases h4; exact h3
  | ignoreOnError =>
    rcases h2 with ⟨f, h3, h4⟩ | ⟨e, _, h4⟩
    · cases h4; exact h3
    · cases h4

/-- The network part of a replay file. -/
theorem replayFile_network {c : Bool} {r : Replay} {fs : List Frame} {bs rest : List Byte}
    (h : ReplayFile c r fs bs rest) :
    ∃ blob, NetworkOf (headerOf r) (bodyOf r blob) fs ∧ blob.length ≤ bs.length ∧
      r.objects.length ≤ 25000 ∧ blob.length < 2 ^ 31 := by
  obtain ⟨x, h1, h2, rfl⟩ := h
  obtain ⟨h3, h4, h5⟩ := fileSecs_sizes h1
  exact ⟨x.body.networkData, h2, h3, h4, h5⟩

theorem parse_network (hs : data.length ≤ env.isizeMax) {r : Replay} {fs : List Frame}
    (h : parseWith check np env data = .ok r) (hf : r.networkFrames = some ⟨fs⟩) :
    ∃ blob, NetworkOf (headerOf r) (bodyOf r blob) fs ∧ blob.length ≤ data.length ∧
      r.objects.length ≤ 25000 ∧ blob.length < 2 ^ 31 := by
  obtain ⟨rest, hr⟩ := replayFile_of hs h hf
  exact replayFile_network hr

theorem parse_must_iff (hs : Small env data) (r : Replay) :
    parseWith check .always env data = .ok r ↔
      ∃ fs rest, ReplayFile (decide (check = .always)) r fs data rest := by
  constructor
  · intro h
    have ⟨x, rest, net, h1, ⟨f, h2, h3⟩, h4⟩ := (parseWith_ok_iff check .always env data hs.1 r).1 h
    subst h3
    obtain ⟨fs⟩ := f
    obtain ⟨rest, hr⟩ := replayFile_of (fs := fs) hs.1.1 h (by rw [h4]; rfl)
    exact ⟨fs, rest, hr⟩
  · rintro ⟨fs, rest, x, h1, h2, rfl⟩
    exact (parseWith_ok_iff check .always env data hs.1 _).2
      ⟨x, rest, _, h1, ⟨_, (network_iff_of hs h1 fs).2 h2, rfl⟩, rfl⟩

end Boxcars
