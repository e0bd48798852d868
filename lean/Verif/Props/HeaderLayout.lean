import Verif.Props.QuickHeader
import Verif.Props.DetailsLayout
import Verif.Spec.HeaderLayout
/-! # The header is read by the published layout (C183) -/
namespace S2
open P87702.ByteAligned Published

theorem vlay_version (v : Version) (h : FitsVersion v) : VLay SVersion v.handedOut (version v) := by
  obtain ⟨h1, h2, h3, h4, h5, h6⟩ := h
  rw [version, record_numbered]
  exact vlay_record (vlay_cons (vlay_u8 h1) (vlay_cons (vlay_u8 h2) (vlay_cons (vlay_u8 h3) (vlay_cons (vlay_u8 h4) (vlay_cons (vlay_u32 h5)
    (vlay_cons (vlay_u32 h6) vlay_nil))))))

theorem vlay_hash (x : Hash) (h : FitsHash x) : VLay Smd5 x.handedOut (md5 x) := by
  obtain ⟨dep, data⟩ := x
  have ho : VLay (.opt (.arr (.int .u8))) (optV (fun l : List Int => .list (l.map .int)) dep) (maybe (array num) dep) :=
    vlay_opt (P := fun l => l.length < 2 ^ 63 ∧ ∀ x ∈ l, U8 x) (fun l hl => vlay_arr l hl.1 (fun a ha => vlay_u8 (hl.2 a ha))) h.1
  have e : (Hash.handedOut ⟨dep, data⟩) = .struct [optV (fun l : List Int => .list (l.map .int)) dep, .bytes data] := by cases dep <;> rfl
  rw [md5, record_numbered, e]
  exact vlay_record (vlay_cons ho (vlay_cons (vlay_txt h.2) vlay_nil))

/-- The members of the header in the description. [proof device, no counterpart in /repo] -/
def headerFields : VFields := match ReplaySHeader with
  | .struct fs => fs
  | _ => .nil

theorem vlay_header (x : Header) (h : HeaderFits x) : ∃ vs, x.handedOut = .struct vs ∧ VLayF headerFields vs (headerMembers x) := by
  obtain ⟨h1, h2, h3, h4, h5, h6, h7⟩ := h
  exact ⟨_, rfl, vlay_cons (vlay_txt h1) (vlay_cons (vlay_version _ h2) (vlay_cons (vlay_u8 h3) (vlay_cons (vlay_u32 h4) (vlay_cons (vlay_bool _)
    (vlay_cons (vlay_hash _ h5) (vlay_cons (vlay_u32 h6) (vlay_cons (vlay_hash _ h7) (vlay_cons (vlay_bool _) vlay_nil))))))))⟩

theorem header_enc (bld : Build) (x : Header) (h : HeaderFits x) (ms : List (Int × List UInt8)) (hm : ms.Perm (headerMembers x)) :
    VEnc bld ReplaySHeader x.handedOut (numbered ms) := by
  obtain ⟨vs, e, hl⟩ := vlay_header x h
  rw [e]
  exact numbered_enc bld headerFields vs ms _ (by decide +kernel) hl hm

/-- **C183.** For every header: with the members in any order, the bytes by the published layout (whatever follows them) are read back as exactly this
header, and the rest is left, in both builds. -/
theorem C183_header (bld : Build) (x : Header) (h : HeaderFits x) (ms : List (Int × List UInt8)) (hm : ms.Perm (headerMembers x)) (rest : List UInt8) :
    vparse bld ReplaySHeader (numbered ms ++ rest) = .ok (rest, x.handedOut) :=
  (vparse_iff bld _ _ _ _).2 ⟨_, rfl, header_enc bld x h ms hm⟩

/-- **C183.** An archive whose user data starts with such a header is taken for a replay of its base build when the signature is that of a
replay; otherwise the readers panic. -/
theorem C183_build (bld : Build) (a : Archive) (x : Header) (h : HeaderFits x) (ms : List (Int × List UInt8)) (hm : ms.Perm (headerMembers x))
    (rest : List UInt8) (ha : a.userData = some (numbered ms ++ rest)) :
    checkedBuild bld a = if x.signature = str "StarCraft II replay" ++ [27, 49, 49] then .ok x.version.baseBuild else .panic := by
  unfold checkedBuild readHeader
  rw [ha]
  dsimp only
  rw [C183_header bld x h ms hm rest]
  show (assertSignature x.signature).bind _ = _
  unfold assertSignature
  rw [show replaySignature = str "StarCraft II replay" ++ [27, 49, 49] from rfl]
  split <;> rfl

/-- **C183.** In the order of the description, the quick header parser gives signature and version of such a header. -/
theorem C183_quick (bld : Build) (x : Header) (h : HeaderFits x) (rest : List UInt8) :
    ∃ tail, quickHeader bld (numbered (headerMembers x) ++ rest) = .ok (tail, (x.signature, x.version.handedOut)) := by
  obtain ⟨vs, e, hl⟩ := vlay_header x h
  have hr := vlay_record hl
  have hv := C143_complete_partial bld x.signature x.version.handedOut (vs.drop 2) rest
    (show VHas (.struct headerFields) _ by
      have := hr.1
      unfold Header.handedOut at e
      cases e
      exact this)
  obtain ⟨tail, ht⟩ := hv
  refine ⟨tail, ?_⟩
  rw [← hr.2]
  unfold Header.handedOut at e
  cases e
  exact ht

/-- The header of a game of protocol 87702. [sample data] -/
def layoutHeader : Header :=
  ⟨str "StarCraft II replay" ++ [27, 49, 49], ⟨1, 5, 0, 9, 87702, 87702⟩, 2, 12345, true, ⟨some [1, 255], [1, 2, 3]⟩, 87702, ⟨none, [9]⟩, false⟩

theorem layoutHeader_fits : HeaderFits layoutHeader := by
  simp only [HeaderFits, layoutHeader, FitsVersion, FitsHash, Maybe, Option.some.injEq, forall_eq', reduceCtorEq, false_imp_iff, implies_true, true_and]
  refine ⟨?_, ?_, ?_, ?_, ?_, ?_, ?_⟩ <;> decide +kernel

example : checkedBuild .release ⟨some (numbered (headerMembers layoutHeader).reverse ++ [1, 2]), fun _ => .err .tag⟩ = .ok 87702 := by decide +kernel

end S2
