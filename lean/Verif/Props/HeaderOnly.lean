import Verif.Props.Params
/-
Property theorem: C16 (parse_header_only agrees with a full load).
-/
namespace PyULog
open Spec

theorem defLoop_headerOnly (cfg : Cfg) (b : Bool) (bs : Bytes) (fuel : Nat) (s : RS) :
    defLoop { cfg with headerOnly := b } bs fuel s = defLoop cfg bs fuel s := by
  induction fuel generalizing s with
  | zero => rfl
  | succ fuel ih =>
    simp only [defLoop]
    have : defStep { cfg with headerOnly := b } bs s = defStep cfg bs s := rfl
    rw [this]
    cases defStep cfg bs s with
    | cont s' => exact ih s'
    | stop s' => rfl
    | raise e => rfl

theorem afterDefs_headerOnly (cfg : Cfg) (b : Bool) (bs : Bytes) (fuel : Nat) :
    afterDefs fuel { cfg with headerOnly := b } bs = afterDefs fuel cfg bs := by
  unfold afterDefs
  simp only [defLoop_headerOnly]

/-- **C16**: when the full load succeeds, loading with `parse_header_only=True` succeeds; both agree
on everything that comes from the header and the definitions. Nothing is taken from the data
section; the info dictionary of the full load is the one of the header with the info messages of the
data section added. -/
theorem C16_header_only (fuel : Nat) (cfg : Cfg) (bs : Bytes) (u : ULog)
    (hc : cfg.headerOnly = false) (h : load fuel cfg bs = .ok u) :
    ∃ v, load fuel { cfg with headerOnly := true } bs = .ok v ∧
      v.startTs = u.startTs ∧ v.fileVersion = u.fileVersion ∧ v.formats = u.formats ∧
      v.initialParams = u.initialParams ∧ v.compat = u.compat ∧ v.incompat = u.incompat ∧
      v.appendedOffsets = u.appendedOffsets ∧
      (v.fileCorrupt = true → u.fileCorrupt = true) ∧
      v.dataList = [] ∧ v.logged = [] ∧ v.tagged = [] ∧ v.dropouts = [] ∧ v.changedParams = [] ∧
      v.lastTs = v.startTs ∧
      ∀ key, u.info.get? key
        = ((lastOf key (((fileTrace fuel cfg bs).flatten.filterMap (infoOf cfg.ign)).map
            fun m => (m.2.1, m.2.2)))).or (v.info.get? key) := by
  have h0 := h
  rw [load_eq] at h
  rw [load_eq]
  split at h
  · cases h
  · rename_i u0 hh
    simp only [defLoop_headerOnly]
    split at h
    · cases h
    · cases h
    · rename_i s heq
      have hs : afterDefs fuel cfg bs = some s := by
        unfold afterDefs; rw [hh]; simp only [heq]
      simp only [if_true]
      rw [if_neg (by rw [hc]; decide)] at h
      have hp := readSections_presS h
      obtain ⟨i1, i2, i3, i4, i5, i6, i7, _⟩ := afterDefs_init hs
      refine ⟨s.u, rfl, hp.startTs.symm, hp.fileVersion.symm, hp.formats.symm,
        hp.initialParams.symm, hp.compat.symm, hp.incompat.symm, hp.appendedOffsets.symm, hp.corrupt,
        i7, i3, i4, i5, i6, i2, ?_⟩
      have key := load_inv (fuel := fuel) (cfg := cfg) (bs := bs) (u := u)
        (P := fun t v => ∀ key, v.info.get? key
          = ((lastOf key ((t.filterMap (infoOf cfg.ign)).map fun m => (m.2.1, m.2.2)))).or
              (s.u.info.get? key))
        (fun t v c hh hp => hp) (fun t v d hp => hp) ?_ ?_ h0
      · exact key
      · intro t v ty d o hp hd key
        rw [filterMap_snoc]
        by_cases hI : ty = tyI
        · have hio : infoOf cfg.ign (v, ty, d) = keyValue cfg.ign d := by simp [infoOf, hI]
          rw [hI, show tyI = MSG_TYPE_INFO from rfl, handleData_I] at hd
          cases hd
          rw [hio]
          cases hpi : parseInfo cfg.ign d with
          | error e =>
            rw [keyValue_err hpi]
            simp only [Option.toList, List.append_nil]
            exact hp key
          | ok m =>
            rw [keyValue_ok hpi]
            simp only [Option.toList, List.map_append, List.map_cons, List.map_nil, Out.bind,
              Out.state, addInfo]
            rw [lastOf_snoc, Dict.get?_set]
            by_cases hk : m.key = key
            · simp [hk]
            · simp only [hk, if_false]; exact hp key
        · have : infoOf cfg.ign (v, ty, d) = none := by simp [infoOf, hI]
          rw [this]
          simp only [Option.toList, List.append_nil]
          rw [handleData_frame (fun u => u.info) hd (hI := fun e => absurd e hI)]
          exact hp key
      · intro s' hs' key
        rw [hs] at hs'; cases hs'
        rfl

/-- the sample file: the full load and the header-only load -/
example : load 20 {} Sample.file = .ok Sample.loaded ∧
    (Sample.get (load 20 { headerOnly := true } Sample.file)).initialParams
      = Sample.loaded.initialParams ∧ Sample.loaded.initialParams.length = 1 ∧
    (Sample.get (load 20 { headerOnly := true } Sample.file)).formats.length = 2 := by
  decide +kernel

end PyULog
