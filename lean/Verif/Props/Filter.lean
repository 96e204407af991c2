import Verif.Lemmas.Filter
import Verif.Spec.SampleRun
/-
Property theorems: C17 (loading with a message name filter).
-/
namespace PyULog
open Spec

/-- **C17**, partial: compare a load with the filter `F` to the load of the same file without
filter. If no message reuses a subscription id for a topic with the other filter status (and
timestamps lie inside the samples), then the filtered load succeeds too, `data_list` is exactly the
accepted part of the unfiltered `data_list`, and formats, info, parameters and text messages are the
same. Changed parameters and dropouts are the same except for the timestamp attached to them.

Missing: equality of those timestamps, of `last_timestamp` and of the corruption flag, which do
not hold (`C17_param_time_depends_on_filter`), and the case of reused ids, where the code mixes
topics (`C17_reused_id_mixes_topics`). -/
theorem C17_filter_partial (fuel : Nat) (cfg : Cfg) (F : NameFilter) (bs : Bytes) (u : ULog)
    (h : load fuel { cfg with filter := .all } bs = .ok u)
    (hok : ∀ t ∈ fileTrace fuel { cfg with filter := .all } bs, ∀ x ∈ t, FilterOk cfg F x) :
    ∃ v, load fuel { cfg with filter := F } bs = .ok v ∧
      v.dataList = u.dataList.filter (fun d => F.accepts d.name) ∧
      v.startTs = u.startTs ∧ v.fileVersion = u.fileVersion ∧ v.formats = u.formats ∧
      v.info = u.info ∧ v.infoMulti = u.infoMulti ∧ v.initialParams = u.initialParams ∧
      v.defaultParams = u.defaultParams ∧ v.logged = u.logged ∧ v.tagged = u.tagged ∧
      v.compat = u.compat ∧ v.incompat = u.incompat ∧ v.appendedOffsets = u.appendedOffsets ∧
      v.changedParams.map (·.2) = u.changedParams.map (·.2) ∧
      v.dropouts.map (·.duration) = u.dropouts.map (·.duration) ∧
      v.lastTs ≤ u.lastTs ∧ (v.fileCorrupt = true → u.fileCorrupt = true) := by
  have key : ∃ v, load fuel { cfg with filter := F } bs = .ok v ∧ FSim F u v := by
    rw [load_eq] at h ⊢
    simp only [defLoop_filter] at h ⊢
    unfold fileTrace afterDefs at hok
    simp only [defLoop_filter] at hok
    split at h
    · cases h
    · rename_i u0 hh
      simp only [hh] at hok
      split at h
      · cases h
      · cases h
      · rename_i s heq
        simp only [heq] at hok
        have hs : afterDefs fuel cfg bs = some s := by
          unfold afterDefs; rw [hh]; simp only [heq]
        obtain ⟨i1, i2, i3, i4, i5, i6, i7, i8, i9, _⟩ := afterDefs_init hs
        have hsim : FSim F s.u s.u :=
          { core := rfl, subs := by rw [i1]; rfl, filtered := (by rw [i1]; intro p hp; cases hp),
            noFilter := i8, corrupt := id, missing := fun _ => id, lastTs := Nat.le_refl _,
            params := rfl, dropouts := rfl, dataList := by rw [i7]; rfl, subsOk := SubsOk.empty i1,
            tsIn := (by rw [i1]; intro p hp; cases hp) }
        split at h
        · rename_i ho
          cases h
          exact ⟨s.u, by rw [if_pos ho], hsim⟩
        · rename_i ho
          rw [if_neg ho] at hok
          obtain ⟨v, hv, hsim'⟩ := fsim_sections cfg F bs _ s.pos s.u s.u u hsim hok h
          exact ⟨v, by rw [if_neg ho]; exact hv, hsim'⟩
  obtain ⟨v, hv, hs⟩ := key
  have c := hs.core
  have g : ∀ {α : Type} (f : ULog → α), f (core v) = f (core u) := fun f => congrArg f c
  exact ⟨v, hv, hs.dataList, g (·.startTs), g (·.fileVersion), g (·.formats), g (·.info),
    g (·.infoMulti), g (·.initialParams), g (·.defaultParams), g (·.logged), g (·.tagged),
    g (·.compat), g (·.incompat), g (·.appendedOffsets), hs.params, hs.dropouts, hs.lastTs,
    hs.corrupt⟩

/-- **C17**: which names pass a filter given as a list: exactly the listed ones. -/
theorem C17_listed_names (l : List Str) (n : Str) :
    (NameFilter.names l).accepts n = true ↔ n ∈ l := by simp [NameFilter.accepts]

namespace Sample

/-- subscriptions of the sample file satisfy the hypothesis, here with the filter `["b"]` -/
theorem filterOk : ∀ t ∈ fileTrace 20 {} file, ∀ x ∈ t, FilterOk {} (.names [py! "b"]) x := by
  have h : ∀ t ∈ fileTrace 20 {} file, ∀ x ∈ t,
      (match subscribed {} x with
       | none => true
       | some tp => decide (tsPos tp.fields + 8 ≤ rowSize tp.fields) &&
          (match x.1.subs.get? tp.msgId with
           | none => true
           | some s => decide ((NameFilter.names [py! "b"]).accepts s.name
              = (NameFilter.names [py! "b"]).accepts tp.name))) = true := by decide +kernel
  intro t ht x hx tp htp
  have := h t ht x hx
  have e : subscribed {} x = some tp := htp
  rw [e] at this
  simp only [Bool.and_eq_true, decide_eq_true_eq] at this
  refine ⟨this.1, fun s hs => ?_⟩
  have h2 := this.2
  rw [hs] at h2
  simpa using h2

end Sample

/-- loading the sample file with the filter `["b"]` -/
example : ∃ v, load 20 { filter := .names [py! "b"] } Sample.file = .ok v ∧
    v.dataList = Sample.loaded.dataList.filter (fun d => decide (d.name ∈ [py! "b"])) ∧
    v.dataList.length = 1 := by
  obtain ⟨v, h1, h2, _⟩ := C17_filter_partial 20 {} (.names [py! "b"]) Sample.file Sample.loaded
    Sample.load_file Sample.filterOk
  refine ⟨v, h1, h2, ?_⟩
  rw [h2]
  decide +kernel

/-- **C17**, finding: the timestamp attached to a changed parameter depends on the filter. -/
theorem C17_param_time_depends_on_filter :
    (Sample.get (load 20 { filter := .names [py! "b"] } Sample.file)).changedParams.map (·.1)
      = [100, 120] ∧
    (Sample.get (load 20 {} Sample.file)).changedParams.map (·.1) = [110, 120] := by
  decide +kernel

namespace Sample
/-- a file that subscribes id 3 to `a` and later to `c`, whose samples have the same size -/
def reused : Bytes := header ++ encMsgs [
    (tyF, asc (py! "a:uint64_t timestamp;int16_t x;")),
    (tyF, asc (py! "c:uint64_t timestamp;int16_t y;"))] ++ encMsgs [
    (tyA, [0, 3, 0] ++ asc (py! "a")), da 110 7,
    (tyA, [0, 3, 0] ++ asc (py! "c")), da 115 8]
end Sample

/-- **C17**, finding: an id that is subscribed again to a rejected topic keeps feeding the accepted
topic, so the filtered load contains a sample of the other topic. -/
theorem C17_reused_id_mixes_topics :
    (Sample.get (load 20 { filter := .names [py! "a"] } Sample.reused)).dataList.map
        (fun d => (d.name, d.data.map (·.2)))
      = [(py! "a", [[.int 110, .int 115], [.int 7, .int 8]])] ∧
    (Sample.get (load 20 {} Sample.reused)).dataList.map (fun d => (d.name, d.data.map (·.2)))
      = [(py! "c", [[.int 115], [.int 8]])] := by
  decide +kernel

end PyULog
