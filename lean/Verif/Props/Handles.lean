import Verif.Spec.Handles
import Mathlib.Tactic.Set
set_option linter.unusedSimpArgs false
/-!
# C117: files, C118: descriptors
-/
namespace Clip
namespace Handles

theorem content_set {os : Os} {k : Nat} {bs : Bytes} (hk : k < os.data.length) (j : Nat) :
    ({ os with data := os.data.set k bs } : Os).content j = if j = k then bs else os.content j := by
  unfold Os.content
  simp only [List.getD_eq_getElem?_getD, List.getElem?_set]
  by_cases h : j = k
  · subst h; simp [hk]
  · simp [h, Ne.symm h]

theorem content_append {os : Os} {bs : Bytes} (j : Nat) (names : Str → Option Nat) :
    ({ os with names := names, data := os.data ++ [bs] } : Os).content j = if j = os.data.length then bs else os.content j := by
  unfold Os.content
  simp only [List.getD_eq_getElem?_getD]
  by_cases h : j = os.data.length
  · subst h; simp
  · rw [if_neg h]
    by_cases h' : j < os.data.length
    · rw [List.getElem?_append_left h']
    · rw [List.getElem?_eq_none (by simp; omega), List.getElem?_eq_none (by omega)]

theorem desc_push (os : Os) (fd : Nat) (d : Desc) : (os.push fd d).desc fd = some d := by
  simp [Os.desc, Os.push]

theorem desc_lt {os : Os} {fd : Nat} {d : Desc} (h : os.desc fd = some d) : ∃ i, os.fds fd = some i ∧ i < os.descs.length ∧
    os.descs[i]? = some d := by
  unfold Os.desc at h
  obtain ⟨i, h1, h2⟩ := Option.bind_eq_some_iff.1 h
  exact ⟨i, h1, (List.getElem?_eq_some_iff.1 h2).1, h2⟩

theorem desc_moveTo {os : Os} {fd : Nat} {d : Desc} (h : os.desc fd = some d) (pos : Nat) :
    (os.moveTo fd pos).desc fd = some { d with offset := pos } := by
  obtain ⟨i, h1, h2, h3⟩ := desc_lt h
  unfold Os.moveTo
  rw [h1, h]
  simp [Os.desc, h1, h2]

theorem moveTo_data (os : Os) (fd pos : Nat) : (os.moveTo fd pos).data = os.data := by
  unfold Os.moveTo; split <;> rfl

theorem moveTo_names (os : Os) (fd pos : Nat) : (os.moveTo fd pos).names = os.names := by
  unfold Os.moveTo; split <;> rfl

theorem moveTo_fds (os : Os) (fd pos : Nat) : (os.moveTo fd pos).fds = os.fds := by
  unfold Os.moveTo; split <;> rfl

theorem moveTo_bad (os : Os) (fd pos : Nat) : (os.moveTo fd pos).badClose = os.badClose := by
  unfold Os.moveTo; split <;> rfl

theorem moveTo_content (os : Os) (fd pos k : Nat) : (os.moveTo fd pos).content k = os.content k := by
  unfold Os.content; rw [moveTo_data]

theorem moveTo_len (os : Os) (fd pos : Nat) : (os.moveTo fd pos).descs.length = os.descs.length := by
  unfold Os.moveTo; split <;> simp

theorem view_some {h : Handle} {os : Os} {v : View} (hv : h.view os = some v) : ∃ fd d, h.fd = some fd ∧ os.desc fd = some d ∧
    v = ⟨os.content d.node, d.offset, d.readable, d.writable⟩ := by
  unfold Handle.view at hv
  cases hf : h.fd with
  | none => rw [hf] at hv; cases hv
  | some fd =>
    rw [hf] at hv
    cases hd : os.desc fd with
    | none => rw [Option.bind_some, hd] at hv; cases hv
    | some d => rw [Option.bind_some, hd] at hv; exact ⟨fd, d, rfl, hd, (Option.some.inj hv).symm⟩

theorem view_of {h : Handle} {os : Os} {fd : Nat} {d : Desc} (hf : h.fd = some fd) (hd : os.desc fd = some d) :
    h.view os = some ⟨os.content d.node, d.offset, d.readable, d.writable⟩ := by
  unfold Handle.view; rw [hf, Option.bind_some, hd]; rfl

theorem sound_node {os : Os} (hs : os.Sound) {fd : Nat} {d : Desc} (h : os.desc fd = some d) : d.node < os.data.length := by
  obtain ⟨i, _, _, h3⟩ := desc_lt h
  exact hs.nodes d (List.mem_of_getElem? h3)

/-! ## Soundness is kept -/

theorem sound_push {os : Os} (hs : os.Sound) {fd : Nat} {d : Desc} (hd : d.node < os.data.length) : (os.push fd d).Sound := by
  refine ⟨hs.names, ?_, ?_⟩
  · intro k i h
    simp only [Os.push] at h ⊢
    rw [List.length_append, List.length_singleton]
    split at h
    · cases h; omega
    · have := hs.fds k i h; omega
  · intro e he
    simp only [Os.push, List.mem_append, List.mem_singleton] at he
    rcases he with he | rfl
    · exact hs.nodes e he
    · exact hd

theorem sound_data {os : Os} (hs : os.Sound) {l : List Bytes} (hl : os.data.length ≤ l.length) :
    ({ os with data := l } : Os).Sound :=
  ⟨fun n k h => Nat.lt_of_lt_of_le (hs.names n k h) hl, hs.fds, fun d hd => Nat.lt_of_lt_of_le (hs.nodes d hd) hl⟩

theorem sound_moveTo {os : Os} (hs : os.Sound) (fd pos : Nat) : (os.moveTo fd pos).Sound := by
  refine ⟨?_, ?_, ?_⟩
  · rw [moveTo_names, moveTo_data]; exact hs.names
  · rw [moveTo_fds, moveTo_len]; exact hs.fds
  · rw [moveTo_data]
    unfold Os.moveTo
    split
    · rename_i i d h1 h2
      intro e he
      rcases List.mem_or_eq_of_mem_set he with he | rfl
      · exact hs.nodes e he
      · exact (sound_node hs h2 : d.node < _)
    · exact hs.nodes

theorem sound_unlink {os : Os} (hs : os.Sound) (name : Str) : (sysUnlink os name).Sound := by
  refine ⟨?_, hs.fds, hs.nodes⟩
  intro n k h
  simp only [sysUnlink] at h
  split at h
  · cases h
  · exact hs.names n k h

theorem sound_close {os : Os} (hs : os.Sound) (fd : Nat) : (sysClose os fd).Sound := by
  unfold sysClose
  split
  · refine ⟨hs.names, ?_, hs.nodes⟩
    intro k i h
    simp only at h
    split at h
    · cases h
    · exact hs.fds k i h
  · exact ⟨hs.names, hs.fds, hs.nodes⟩

/-! ## Opening -/

/-- All that `openFile` does. -/
theorem open_ok {S : Sys} {os os' : Os} (hs : os.Sound) {name : Str} {fl : Flags} {h : Handle}
    (ho : openFile S os name fl = (os', .ok h)) :
    ∃ (fd k : Nat) (os₁ : Os), S.openAt os name = some fd ∧ h = ⟨some fd, fl⟩ ∧ os₁.Sound ∧ k < os₁.data.length ∧ os₁.fds = os.fds ∧
      os₁.descs = os.descs ∧ os₁.badClose = os.badClose ∧
      os' = (if fl.autoDelete then sysUnlink (os₁.push fd ⟨k, 0, fl.read, fl.write⟩) name
        else os₁.push fd ⟨k, 0, fl.read, fl.write⟩) ∧
      os₁.names name = some k ∧ (∀ n, n ≠ name → os₁.names n = os.names n) ∧
      (∀ n j, n ≠ name → os.names n = some j → os.names name ≠ some j → j ≠ k) ∧
      (∀ j, j ≠ k → os₁.content j = os.content j) ∧
      (fl.read = true ∨ fl.write = true) ∧
      ((os.names name = some k ∧ (fl.create = true → fl.createOrOpen = true) ∧
          os₁.content k = if fl.truncate then [] else os.content k) ∨
       (os.names name = none ∧ (fl.create = true ∨ fl.createOrOpen = true) ∧ os₁.content k = [])) := by
  unfold openFile at ho
  split at ho
  · cases (Prod.mk.inj ho).2
  · rename_i hrw
    have hrw' : fl.read = true ∨ fl.write = true := by
      cases h1 : fl.read <;> cases h2 : fl.write <;> simp_all
    dsimp only at ho
    split at ho
    · cases (Prod.mk.inj ho).2
    · rename_i os₂ fd h2
      obtain ⟨e1, e2⟩ := Prod.mk.inj ho
      cases e2
      subst e1
      unfold sysOpen at h2
      split at h2
      · cases h2
      · rename_i fd' hfd
        split at h2
        · rename_i k hk
          split at h2
          · cases h2
          · rename_i hx
            obtain ⟨e1, e2⟩ := Prod.mk.inj (Option.some.inj h2)
            subst e2
            subst e1
            have hkl := hs.names _ _ hk
            refine ⟨fd', k, if fl.truncate then { os with data := os.data.set k [] } else os, hfd, rfl, ?_, ?_, ?_, ?_, ?_, rfl, ?_,
              ?_, ?_, ?_, hrw', .inl ⟨hk, ?_, ?_⟩⟩
            · split
              · exact sound_data hs (by simp)
              · exact hs
            · split
              · simpa using hkl
              · exact hkl
            · split <;> rfl
            · split <;> rfl
            · split <;> rfl
            · split <;> exact hk
            · intro n _; split <;> rfl
            · intro n j _ _ hj e
              subst e
              exact hj hk
            · intro j hj
              split
              · rw [content_set hkl, if_neg hj]
              · rfl
            · cases h1 : fl.create <;> cases h3 : fl.createOrOpen <;> simp_all
            · split
              · rw [content_set hkl, if_pos rfl]
              · rfl
        · rename_i hk
          split at h2
          · rename_i hc
            obtain ⟨e1, e2⟩ := Prod.mk.inj (Option.some.inj h2)
            subst e2
            subst e1
            refine ⟨fd', os.data.length, { os with names := fun n => if n = name then some os.data.length else os.names n, data := os.data ++ [[]] },
              hfd, rfl, ⟨?_, hs.fds, ?_⟩, by simp, rfl, rfl, rfl, rfl, by simp, ?_, ?_, ?_, hrw', .inr ⟨hk, ?_, ?_⟩⟩
            · intro n j hj
              simp only at hj
              rw [List.length_append, List.length_singleton]
              split at hj
              · cases hj; omega
              · have := hs.names n j hj; omega
            · intro d hd
              have := hs.nodes d hd
              rw [List.length_append, List.length_singleton]
              omega
            · intro n hn; simp [hn]
            · intro n j _ hj _ e
              have := hs.names n j hj
              omega
            · intro j hj
              rw [content_append, if_neg hj]
            · cases h1 : fl.create <;> cases h3 : fl.createOrOpen <;> simp_all
            · rw [content_append, if_pos rfl]
          · cases h2

theorem push_content (os : Os) (fd : Nat) (d : Desc) (k : Nat) : (os.push fd d).content k = os.content k := rfl

theorem unlink_content (os : Os) (name : Str) (k : Nat) : (sysUnlink os name).content k = os.content k := rfl

theorem unlink_desc (os : Os) (name : Str) (k : Nat) : (sysUnlink os name).desc k = os.desc k := rfl

end Handles

open Handles

/-- C117: `openFile` fails, and changes nothing, if neither reading nor writing is asked for, if the file does not exist and
is not to be created, if it exists although it is to be created (and not: created or opened), or if the system refuses; and
in no other case. -/
theorem C117_refused (S : Sys) (os : Os) (name : Str) (fl : Flags) :
    (∃ os' e, openFile S os name fl = (os', .error e) ∧ os' = os) ↔
      (fl.read = false ∧ fl.write = false) ∨
      (os.file name = none ∧ fl.create = false ∧ fl.createOrOpen = false) ∨
      (os.file name ≠ none ∧ fl.create = true ∧ fl.createOrOpen = false) ∨ S.openAt os name = none := by
  unfold openFile sysOpen Os.file
  cases h1 : fl.read <;> cases h2 : fl.write <;> cases h3 : fl.create <;> cases h4 : fl.createOrOpen <;>
    cases h5 : S.openAt os name <;> cases h6 : os.names name <;> simp [Prod.ext_iff]

/-- C117: the exception is that for wrong arguments exactly if neither reading nor writing is asked for. -/
theorem C117_illegal (S : Sys) (os : Os) (name : Str) (fl : Flags) :
    (openFile S os name fl).2 = .error .illegal ↔ fl.read = false ∧ fl.write = false := by
  unfold openFile
  cases h1 : fl.read <;> cases h2 : fl.write <;> simp <;> split <;> simp

/-- C117: an opened file can be read and written as asked for, from its beginning on.  It is empty if it did not exist or was
to be truncated, else its contents are kept.  It has its name unless it is to be deleted automatically.  Other files
keep their contents, and just one more descriptor is open. -/
theorem C117_opened (S : Sys) (hS : S.Sane) (os os' : Os) (hs : os.Sound) (name : Str) (fl : Flags) (h : Handle)
    (ho : openFile S os name fl = (os', .ok h)) :
    ∃ fd content, h.fd = some fd ∧
      content = (if fl.truncate then [] else (os.file name).getD []) ∧
      h.view os' = some ⟨content, 0, fl.read, fl.write⟩ ∧
      os'.file name = (if fl.autoDelete then none else some content) ∧
      (∀ n, n ≠ name → os.names n ≠ os.names name → os'.file n = os.file n) ∧
      ¬ os.isOpen fd ∧ (∀ k, os'.isOpen k ↔ os.isOpen k ∨ k = fd) ∧ os'.Sound := by
  obtain ⟨fd, k, os₁, h1, rfl, h3, h4, h5, h6, _, rfl, h8, h9, h10, h11, _, h12⟩ := open_ok hs ho
  have hc : os₁.content k = if fl.truncate then [] else (os.file name).getD [] := by
    rcases h12 with ⟨g1, _, g2⟩ | ⟨g1, _, g2⟩
    · rw [g2]; unfold Os.file; rw [g1]; rfl
    · rw [g2]; unfold Os.file; rw [g1]; simp
  have hother : ∀ n, n ≠ name → os.names n ≠ os.names name → (os₁.names n).map os₁.content = os.file n := by
    intro n hn hne
    rw [h9 n hn]
    unfold Os.file
    cases hj : os.names n with
    | none => rfl
    | some j =>
      rw [Option.map_some, Option.map_some, h11 j (h10 n j hn hj (fun e => hne (by rw [hj, e])))]
  refine ⟨fd, if fl.truncate then [] else (os.file name).getD [], rfl, rfl, ?_, ?_, ?_, ?_, ?_, ?_⟩
  · rw [← hc]
    split
    · exact view_of (d := ⟨k, 0, fl.read, fl.write⟩) (fd := fd) rfl (desc_push os₁ fd _)
    · exact view_of (d := ⟨k, 0, fl.read, fl.write⟩) (fd := fd) rfl (desc_push os₁ fd _)
  · rw [← hc]
    split
    · simp [Os.file, sysUnlink]
    · show ((os₁.push fd _).names name).map _ = _
      simp only [Os.push, h8, Option.map_some]
      rfl
  · intro n hn hne
    rw [← hother n hn hne]
    split
    · simp only [Os.file, sysUnlink, Os.push, if_neg hn]
      rfl
    · rfl
  · exact fun hop => hop (hS.openAt _ _ _ h1)
  · intro j
    have e : ∀ o : Os, (if fl.autoDelete then sysUnlink o name else o).fds = o.fds := by intro o; split <;> rfl
    unfold Os.isOpen
    rw [e]
    simp only [Os.push, h5]
    by_cases hj : j = fd
    · simp [hj]
    · simp [hj]
  · have := sound_push h3 (fd := fd) (d := ⟨k, 0, fl.read, fl.write⟩) h4
    split
    · exact sound_unlink this name
    · exact this

/-- C117: a successful `write` puts the bytes at the position (over what is there; a hole is filled with zeros), and moves
the position behind them. -/
theorem C117_write (S : Sys) (os os' : Os) (hs : os.Sound) (h : Handle) (v : View) (hv : h.view os = some v) (bs : Bytes)
    (hw : h.write S os bs = (os', .ok ())) (hne : bs ≠ []) :
    v.writable = true ∧ os'.Sound ∧ ∃ v', h.view os' = some v' ∧ v'.position = v.position + bs.length ∧
      v'.readable = v.readable ∧ v'.writable = v.writable ∧
      v'.content = v.content.take v.position ++ List.replicate (v.position - v.content.length) 0 ++ bs ++
        v.content.drop (v.position + bs.length) := by
  obtain ⟨fd, d, hf, hd, rfl⟩ := view_some hv
  unfold Handle.write at hw
  rw [hf] at hw
  simp only [hd] at hw
  split at hw
  · rename_i hwr
    split at hw
    · cases (Prod.mk.inj hw).2
    · rename_i k hk
      obtain ⟨e1, e2⟩ := Prod.mk.inj hw
      split at e2
      · rename_i hkl
        subst hkl
        rw [List.take_length] at e1
        have hn := sound_node hs hd
        set os₂ : Os := { os with data := os.data.set d.node (overwrite (os.content d.node) d.offset bs) } with hos
        have hs2 : os₂.Sound := sound_data hs (by simp)
        have hd2 : os₂.desc fd = some d := hd
        subst e1
        refine ⟨hwr, sound_moveTo hs2 _ _, _, view_of hf (desc_moveTo hd2 _), rfl, rfl, rfl, ?_⟩
        simp only [moveTo_content]
        rw [hos, content_set hn, if_pos rfl]
        unfold overwrite
        rw [if_neg hne]
      · cases e2
  · cases (Prod.mk.inj hw).2

/-- C117: `read` returns a part of the contents that begins at the position, and moves the position behind it. -/
theorem C117_read (S : Sys) (os os' : Os) (hs : os.Sound) (h : Handle) (v : View) (hv : h.view os = some v) (n : Nat)
    (bs : Bytes) (hr : h.read S os n = (os', .ok bs)) (hS : S.Sane) :
    v.readable = true ∧ os'.Sound ∧ bs.length ≤ n ∧ bs = (v.content.drop v.position).take bs.length ∧
      (S.ReadsAll → bs.length = min n (v.content.length - v.position)) ∧
      h.view os' = some { v with position := v.position + bs.length } ∧ ∀ name, os'.file name = os.file name := by
  obtain ⟨fd, d, hf, hd, rfl⟩ := view_some hv
  unfold Handle.read at hr
  rw [hf] at hr
  simp only [hd] at hr
  split at hr
  · rename_i hre
    split at hr
    · cases (Prod.mk.inj hr).2
    · rename_i k hk
      obtain ⟨e1, e2⟩ := Prod.mk.inj hr
      cases e2
      subst e1
      obtain ⟨b1, b2⟩ := hS.read _ _ _ _ _ hk hd
      have hlen : (((os.content d.node).drop d.offset).take k).length = k := by
        rw [List.length_take, List.length_drop]
        omega
      refine ⟨hre, sound_moveTo hs _ _, by rw [hlen]; exact b1, by rw [hlen], ?_, ?_, ?_⟩
      · intro ha
        rw [hlen]
        exact ha _ _ _ _ _ hk hd
      · rw [hlen, view_of hf (desc_moveTo hd _)]
        simp only [moveTo_content]
      · intro name
        unfold Os.file
        rw [moveTo_names]
        congr 1
        funext j
        exact moveTo_content _ _ _ _
  · cases (Prod.mk.inj hr).2

/-- C117: `seekTo` only changes the position. -/
theorem C117_seek (S : Sys) (os os' : Os) (h : Handle) (v : View) (hv : h.view os = some v) (pos : Nat)
    (hr : h.seekTo S os pos = (os', .ok ())) :
    h.view os' = some { v with position := pos } ∧ ∀ name, os'.file name = os.file name := by
  obtain ⟨fd, d, hf, hd, rfl⟩ := view_some hv
  unfold Handle.seekTo at hr
  rw [hf] at hr
  simp only [hd] at hr
  split at hr
  · obtain ⟨e1, _⟩ := Prod.mk.inj hr
    subst e1
    refine ⟨?_, ?_⟩
    · rw [view_of hf (desc_moveTo hd _)]
      simp only [moveTo_content]
    · intro name
      unfold Os.file
      rw [moveTo_names]
      congr 1
      funext j
      exact moveTo_content _ _ _ _
  · cases (Prod.mk.inj hr).2

/-- C117: `size` is the length of the contents. -/
theorem C117_size (S : Sys) (os : Os) (h : Handle) (v : View) (hv : h.view os = some v) (n : Nat)
    (hr : h.size S os = .ok n) : n = v.content.length := by
  obtain ⟨fd, d, hf, hd, rfl⟩ := view_some hv
  unfold Handle.size at hr
  rw [hf] at hr
  simp only [hd] at hr
  split at hr
  · cases hr; rfl
  · cases hr

/-- C117: `truncate` cuts the contents or fills them up with zeros, and does not move the position. -/
theorem C117_truncate (S : Sys) (os os' : Os) (hs : os.Sound) (h : Handle) (v : View) (hv : h.view os = some v) (n : Nat)
    (hr : h.truncate S os n = (os', .ok ())) :
    v.writable = true ∧ ∃ v', h.view os' = some v' ∧ v'.position = v.position ∧ v'.content.length = n ∧
      ∀ k, k < n → v'.content[k]? = if k < v.content.length then v.content[k]? else some 0 := by
  obtain ⟨fd, d, hf, hd, rfl⟩ := view_some hv
  unfold Handle.truncate at hr
  rw [hf] at hr
  simp only [hd] at hr
  split at hr
  · rename_i hc
    obtain ⟨e1, _⟩ := Prod.mk.inj hr
    have hn := sound_node hs hd
    refine ⟨by simp at hc; exact hc.1, ⟨os'.content d.node, d.offset, d.readable, d.writable⟩, ?_, rfl, ?_, ?_⟩
    · subst e1; exact view_of hf hd
    · subst e1
      rw [content_set hn, if_pos rfl]
      simp; omega
    · intro k hk
      subst e1
      rw [content_set hn, if_pos rfl]
      simp only
      split
      · rename_i hlt
        rw [List.getElem?_append_left (by simp; omega), List.getElem?_take_of_lt hk]
      · rename_i hge
        rw [List.getElem?_append_right (by simp; omega), List.getElem?_replicate, if_pos]
        simp; omega
  · cases (Prod.mk.inj hr).2

/-- C117: several `write`s of a file that was empty give the bytes one after the other. -/
theorem C117_writes (S : Sys) (h : Handle) (ds : List Bytes) (os os' : Os) (hs : os.Sound) (rd : Bool) (content : Bytes)
    (hv : h.view os = some ⟨content, content.length, rd, true⟩)
    (hw : ∃ states : List Os, states.length = ds.length + 1 ∧ states[0]? = some os ∧ states[ds.length]? = some os' ∧
      ∀ i d s s', ds[i]? = some d → states[i]? = some s → states[i + 1]? = some s' → h.write S s d = (s', .ok ()))
    (hne : ∀ d ∈ ds, d ≠ []) :
    h.view os' = some ⟨content ++ ds.flatten, content.length + ds.flatten.length, rd, true⟩ := by
  induction ds generalizing os content with
  | nil =>
    obtain ⟨states, _, h2, h3, _⟩ := hw
    simp only [List.length_nil] at h3
    rw [h2] at h3
    cases h3
    simpa using hv
  | cons d ds ih =>
    obtain ⟨states, h1, h2, h3, h4⟩ := hw
    cases states with
    | nil => cases h2
    | cons s states =>
    cases states with
    | nil => simp at h1
    | cons s' states =>
      simp only [List.getElem?_cons_zero, Option.some.injEq] at h2
      subst h2
      have hstep := h4 0 d s s' rfl rfl rfl
      obtain ⟨_, hs', v', hv', p1, p2, p3, p4⟩ := C117_write S s s' hs h _ hv d hstep (hne d (by simp))
      simp only at p1 p2 p3 p4
      have hcont : v'.content = content ++ d := by
        rw [p4]
        simp
      have : v' = ⟨content ++ d, (content ++ d).length, rd, true⟩ := by
        cases v'
        simp only at p1 p2 p3 hcont
        subst p1 p2 p3 hcont
        simp
      rw [this] at hv'
      have := ih s' hs' (content ++ d) hv' ⟨s' :: states, by simpa using h1, rfl, by simpa using h3, ?_⟩
        fun e he => hne e (by simp [he])
      · rw [this]
        simp [Nat.add_assoc]
      · intro i e a b ha hb hc
        exact h4 (i + 1) e a b (by simpa using ha) (by simpa using hb) (by simpa using hc)

/-- C117: reading on and on gives the contents from the position on. -/
theorem C117_reads (S : Sys) (hS : S.Sane) (h : Handle) (rs : List Bytes) (os os' : Os) (hs : os.Sound) (v : View)
    (hv : h.view os = some v)
    (hw : ∃ states : List Os, states.length = rs.length + 1 ∧ states[0]? = some os ∧ states[rs.length]? = some os' ∧
      ∀ i r s s', rs[i]? = some r → states[i]? = some s → states[i + 1]? = some s' → ∃ n, h.read S s n = (s', .ok r)) :
    rs.flatten = (v.content.drop v.position).take rs.flatten.length ∧
      h.view os' = some { v with position := v.position + rs.flatten.length } := by
  induction rs generalizing os v with
  | nil =>
    obtain ⟨states, _, h2, h3, _⟩ := hw
    simp only [List.length_nil] at h3
    rw [h2] at h3
    cases h3
    simpa using hv
  | cons r rs ih =>
    obtain ⟨states, h1, h2, h3, h4⟩ := hw
    cases states with
    | nil => cases h2
    | cons s states =>
    cases states with
    | nil => simp at h1
    | cons s' states =>
      simp only [List.getElem?_cons_zero, Option.some.injEq] at h2
      subst h2
      obtain ⟨n, hstep⟩ := h4 0 r s s' rfl rfl rfl
      obtain ⟨_, hs', _, p2, _, p4, _⟩ := C117_read S s s' hs h _ hv n r hstep hS
      obtain ⟨q1, q2⟩ := ih s' hs' _ p4 ⟨s' :: states, by simpa using h1, rfl, by simpa using h3, fun i e a b ha hb hc =>
        h4 (i + 1) e a b (by simpa using ha) (by simpa using hb) (by simpa using hc)⟩
      simp only at q1 q2
      constructor
      · rw [List.flatten_cons, List.length_append, List.take_add, ← p2, List.drop_drop, ← q1]
      · rw [q2, List.flatten_cons, List.length_append, Nat.add_assoc]

/-! ## Whole files -/

namespace Handles

theorem close_file (os : Os) (fd : Nat) (name : Str) : (sysClose os fd).file name = os.file name := by
  unfold sysClose; split <;> rfl

theorem destroy_file (h : Handle) (os : Os) (name : Str) : (h.destroy os).file name = os.file name := by
  unfold Handle.destroy
  split
  · exact close_file _ _ _
  · rfl

theorem close_open {os : Os} {fd : Nat} (h : os.fds fd ≠ none) : (sysClose os fd).badClose = os.badClose ∧
    ∀ k, (sysClose os fd).fds k = if k = fd then none else os.fds k := by
  unfold sysClose
  split
  · exact ⟨rfl, fun _ => rfl⟩
  · rename_i h0; exact absurd h0 h

theorem open_fds {S : Sys} {os os' : Os} (hs : os.Sound) {name : Str} {fl : Flags} {h : Handle}
    (ho : openFile S os name fl = (os', .ok h)) : ∃ fd i, h = ⟨some fd, fl⟩ ∧ S.openAt os name = some fd ∧
      os'.badClose = os.badClose ∧ ∀ k, os'.fds k = if k = fd then some i else os.fds k := by
  obtain ⟨fd, k, os₁, h1, rfl, h3, h4, h5, h6, h7, rfl, _⟩ := open_ok hs ho
  refine ⟨fd, os₁.descs.length, rfl, h1, ?_, ?_⟩
  · split <;> exact h7
  · intro k
    split <;> simp only [sysUnlink, Os.push, h5]

theorem read_fds {S : Sys} {os os' : Os} {h : Handle} {n : Nat} {r : Except Raised Bytes} (hr : h.read S os n = (os', r)) :
    os'.fds = os.fds ∧ os'.badClose = os.badClose := by
  unfold Handle.read at hr
  repeat' split at hr
  all_goals obtain ⟨e, _⟩ := Prod.mk.inj hr; subst e
  all_goals first | exact ⟨rfl, rfl⟩ | exact ⟨moveTo_fds _ _ _, moveTo_bad _ _ _⟩

theorem write_fds {S : Sys} {os os' : Os} {h : Handle} {bs : Bytes} {r : Except Raised Unit}
    (hr : h.write S os bs = (os', r)) : os'.fds = os.fds ∧ os'.badClose = os.badClose := by
  unfold Handle.write at hr
  split at hr
  · obtain ⟨e, _⟩ := Prod.mk.inj hr; subst e; exact ⟨rfl, rfl⟩
  · split at hr
    · obtain ⟨e, _⟩ := Prod.mk.inj hr; subst e; exact ⟨rfl, rfl⟩
    · split at hr
      · split at hr
        · obtain ⟨e, _⟩ := Prod.mk.inj hr; subst e; exact ⟨rfl, rfl⟩
        · obtain ⟨e, _⟩ := Prod.mk.inj hr; subst e
          exact ⟨moveTo_fds _ _ _, moveTo_bad _ _ _⟩
      · obtain ⟨e, _⟩ := Prod.mk.inj hr; subst e; exact ⟨rfl, rfl⟩

theorem seek_fds {S : Sys} {os os' : Os} {h : Handle} {n : Nat} {r : Except Raised Unit}
    (hr : h.seekTo S os n = (os', r)) : os'.fds = os.fds ∧ os'.badClose = os.badClose := by
  unfold Handle.seekTo at hr
  repeat' split at hr
  all_goals obtain ⟨e, _⟩ := Prod.mk.inj hr; subst e
  all_goals first | exact ⟨rfl, rfl⟩ | exact ⟨moveTo_fds _ _ _, moveTo_bad _ _ _⟩

theorem truncate_fds {S : Sys} {os os' : Os} {h : Handle} {n : Nat} {r : Except Raised Unit}
    (hr : h.truncate S os n = (os', r)) : os'.fds = os.fds ∧ os'.badClose = os.badClose := by
  unfold Handle.truncate at hr
  repeat' split at hr
  all_goals obtain ⟨e, _⟩ := Prod.mk.inj hr; subst e
  all_goals exact ⟨rfl, rfl⟩

theorem read_sound {S : Sys} {os os' : Os} (hs : os.Sound) {h : Handle} {n : Nat} {r : Except Raised Bytes}
    (hr : h.read S os n = (os', r)) : os'.Sound := by
  unfold Handle.read at hr
  repeat' split at hr
  all_goals obtain ⟨e, _⟩ := Prod.mk.inj hr; subst e
  all_goals first | exact hs | exact sound_moveTo hs _ _

theorem write_sound {S : Sys} {os os' : Os} (hs : os.Sound) {h : Handle} {bs : Bytes} {r : Except Raised Unit}
    (hr : h.write S os bs = (os', r)) : os'.Sound := by
  unfold Handle.write at hr
  split at hr
  · obtain ⟨e, _⟩ := Prod.mk.inj hr; subst e; exact hs
  · split at hr
    · obtain ⟨e, _⟩ := Prod.mk.inj hr; subst e; exact hs
    · split at hr
      · split at hr
        · obtain ⟨e, _⟩ := Prod.mk.inj hr; subst e; exact hs
        · obtain ⟨e, _⟩ := Prod.mk.inj hr; subst e
          exact sound_moveTo (sound_data hs (by simp)) _ _
      · obtain ⟨e, _⟩ := Prod.mk.inj hr; subst e; exact hs

theorem seek_sound {S : Sys} {os os' : Os} (hs : os.Sound) {h : Handle} {n : Nat} {r : Except Raised Unit}
    (hr : h.seekTo S os n = (os', r)) : os'.Sound := by
  unfold Handle.seekTo at hr
  repeat' split at hr
  all_goals obtain ⟨e, _⟩ := Prod.mk.inj hr; subst e
  all_goals first | exact hs | exact sound_moveTo hs _ _

theorem truncate_sound {S : Sys} {os os' : Os} (hs : os.Sound) {h : Handle} {n : Nat} {r : Except Raised Unit}
    (hr : h.truncate S os n = (os', r)) : os'.Sound := by
  unfold Handle.truncate at hr
  repeat' split at hr
  all_goals obtain ⟨e, _⟩ := Prod.mk.inj hr; subst e
  all_goals first | exact hs | exact sound_data hs (by simp)

theorem open_error {S : Sys} {os os' : Os} {name : Str} {fl : Flags} {e : Raised}
    (ho : openFile S os name fl = (os', .error e)) : os' = os := by
  unfold openFile at ho
  split at ho
  · exact (Prod.mk.inj ho).1.symm
  · dsimp only at ho
    split at ho
    · exact (Prod.mk.inj ho).1.symm
    · cases (Prod.mk.inj ho).2

end Handles

/-- C117: `FileUtil::write` either writes the whole file and nothing else, or raises an exception. -/
theorem C117_write_whole (S : Sys) (hS : S.Sane) (os os' : Os) (hs : os.Sound) (name : Str) (bs : Bytes)
    (hw : writeWhole S os name bs = (os', .ok ())) :
    os'.file name = some bs ∧ (∀ n, n ≠ name → os.names n ≠ os.names name → os'.file n = os.file n) ∧ os'.Sound := by
  unfold writeWhole at hw
  split at hw
  · cases (Prod.mk.inj hw).2
  · rename_i os₁ h ho
    split at hw
    rename_i os₂ r hwr
    obtain ⟨rfl, rfl⟩ := Prod.mk.inj hw
    obtain ⟨fd, k, os₀, h1, rfl, h3, h4, h5, h6, h7, e, h8, h9, h10, h11, _, h12⟩ := open_ok hs ho
    simp only [Bool.false_eq_true, if_false] at e
    have hd : os₁.desc fd = some ⟨k, 0, false, true⟩ := by rw [e]; exact desc_push os₀ fd _
    have hkc : os₁.content k = [] := by
      rw [e, push_content]
      rcases h12 with ⟨_, _, g⟩ | ⟨_, _, g⟩
      · simpa using g
      · exact g
    have hk1 : k < os₁.data.length := by rw [e]; exact h4
    have hs1 : os₁.Sound := by rw [e]; exact sound_push h3 h4
    have hs2 := write_sound hs1 hwr
    have hn : os₁.names = os₀.names := by rw [e]; rfl
    unfold Handle.write at hwr
    simp only [hd, if_true] at hwr
    split at hwr
    · cases (Prod.mk.inj hwr).2
    · rename_i j hj
      obtain ⟨e1, e2⟩ := Prod.mk.inj hwr
      split at e2
      · rename_i hjl
        subst hjl
        rw [List.take_length, hkc] at e1
        have hov : overwrite [] 0 bs = bs := by
          unfold overwrite
          split
          · rename_i hb; exact hb.symm
          · simp
        rw [hov] at e1
        have hcont : ∀ i, os₂.content i = if i = k then bs else os₁.content i := by
          intro i
          rw [← e1, moveTo_content, content_set hk1]
        have hnames : os₂.names = os₀.names := by rw [← e1, moveTo_names]; exact hn
        refine ⟨?_, ?_, ?_⟩
        · rw [destroy_file]
          unfold Os.file
          rw [hnames, h8, Option.map_some, hcont, if_pos rfl]
        · intro n hn' hne
          rw [destroy_file]
          unfold Os.file
          rw [hnames, h9 n hn']
          cases hi : os.names n with
          | none => rfl
          | some i =>
            have hik := h10 n i hn' hi (fun e' => hne (by rw [hi, e']))
            rw [Option.map_some, Option.map_some, hcont, if_neg hik, e, push_content, h11 i hik]
        · exact sound_close hs2 fd
      · cases e2

/-- C117: what `FileUtil::write` and `FileUtil::read` open they close, whether they succeed or not, and nothing else. -/
theorem C117_closed (S : Sys) (hS : S.Sane) (os : Os) (hs : os.Sound) (name : Str) (bs : Bytes) :
    (writeWhole S os name bs).1.fds = os.fds ∧ (writeWhole S os name bs).1.badClose = os.badClose ∧
    (readWhole S os name).1.fds = os.fds ∧ (readWhole S os name).1.badClose = os.badClose := by
  have close : ∀ {os₁ os₂ : Os} {fl : Flags} {h : Handle}, openFile S os name fl = (os₁, .ok h) → os₂.fds = os₁.fds →
      os₂.badClose = os₁.badClose → (h.destroy os₂).fds = os.fds ∧ (h.destroy os₂).badClose = os.badClose := by
    intro os₁ os₂ fl h ho e1 e2
    obtain ⟨fd, i, rfl, h1, h2, h3⟩ := open_fds hs ho
    have hop : os₂.fds fd ≠ none := by rw [e1, h3, if_pos rfl]; simp
    obtain ⟨c1, c2⟩ := close_open hop
    refine ⟨?_, ?_⟩
    · funext k
      show (sysClose os₂ fd).fds k = _
      rw [c2, e1, h3]
      by_cases hk : k = fd
      · rw [if_pos hk, hk, hS.openAt _ _ _ h1]
      · rw [if_neg hk, if_neg hk]
    · show (sysClose os₂ fd).badClose = _
      rw [c1, e2, h2]
  refine ⟨?_, ?_, ?_, ?_⟩
  · unfold writeWhole
    split
    · rename_i ho; rw [open_error ho]
    · rename_i os₁ h ho
      split
      rename_i os₂ r hwr
      exact (close ho (write_fds hwr).1 (write_fds hwr).2).1
  · unfold writeWhole
    split
    · rename_i ho; rw [open_error ho]
    · rename_i os₁ h ho
      split
      rename_i os₂ r hwr
      exact (close ho (write_fds hwr).1 (write_fds hwr).2).2
  · unfold readWhole
    split
    · rename_i ho; rw [open_error ho]
    · rename_i os₁ h ho
      split
      · exact (close ho rfl rfl).1
      · split
        · rename_i hwr; exact (close ho (read_fds hwr).1 (read_fds hwr).2).1
        · rename_i hwr; exact (close ho (read_fds hwr).1 (read_fds hwr).2).1
  · unfold readWhole
    split
    · rename_i ho; rw [open_error ho]
    · rename_i os₁ h ho
      split
      · exact (close ho rfl rfl).2
      · split
        · rename_i hwr; exact (close ho (read_fds hwr).1 (read_fds hwr).2).2
        · rename_i hwr; exact (close ho (read_fds hwr).1 (read_fds hwr).2).2

namespace Handles

/-- What `FileUtil::read` returns: as much as the system read, then cells that were not written. -/
theorem readWhole_ok {S : Sys} (hS : S.Sane) {os os' : Os} (hs : os.Sound) {name : Str} {r : List (Option UInt8)}
    (hr : readWhole S os name = (os', .ok r)) :
    ∃ content k os₁ fd, os.file name = some content ∧ k ≤ content.length ∧
      r = (content.take k).map some ++ List.replicate (content.length - k) none ∧
      (∃ d, os₁.desc fd = some d ∧ d.offset = 0 ∧ os₁.content d.node = content) ∧
      S.readCount os₁ fd content.length = some k ∧ ∀ n, os'.file n = os.file n := by
  unfold readWhole at hr
  split at hr
  · cases (Prod.mk.inj hr).2
  · rename_i os₁ h ho
    split at hr
    · cases (Prod.mk.inj hr).2
    · rename_i n hn
      split at hr
      · cases (Prod.mk.inj hr).2
      · rename_i os₂ bs hrd
        obtain ⟨e, e2⟩ := Prod.mk.inj hr
        cases e2
        obtain ⟨fd, k, os₀, h1, rfl, h3, h4, h5, h6, h7, e1, h8, h9, h10, h11, _, h12⟩ := open_ok hs ho
        simp only [Bool.false_eq_true, if_false] at e1
        have hd : os₁.desc fd = some ⟨k, 0, true, false⟩ := by rw [e1]; exact desc_push os₀ fd _
        have hex : os.names name = some k ∧ os₀.content k = os.content k := by
          rcases h12 with ⟨g1, _, g2⟩ | ⟨_, g, _⟩
          · exact ⟨g1, by simpa using g2⟩
          · simp at g
        have hs1 : os₁.Sound := by rw [e1]; exact sound_push h3 h4
        have hv := view_of (h := ⟨some fd, { read := true }⟩) rfl hd
        have hsize := C117_size S os₁ _ _ hv n hn
        obtain ⟨_, _, b1, b2, _, _, b3⟩ := C117_read S os₁ os₂ hs1 _ _ hv n bs hrd hS
        simp only [List.drop_zero] at b2 hsize
        have hc1 : os₁.content k = os.content k := by rw [e1, push_content]; exact hex.2
        have hfile : os.file name = some (os₁.content k) := by unfold Os.file; rw [hex.1, hc1]; rfl
        refine ⟨os₁.content k, bs.length, os₁, fd, hfile, by omega, ?_, ⟨_, hd, rfl, rfl⟩, ?_, ?_⟩
        · rw [hsize, ← b2]
        · unfold Handle.read at hrd
          simp only [hd, if_true] at hrd
          split at hrd
          · cases (Prod.mk.inj hrd).2
          · rename_i j hj
            obtain ⟨_, e3⟩ := Prod.mk.inj hrd
            have e3 := Except.ok.inj e3
            have hjb := hS.read _ _ _ _ _ hj hd
            simp only [List.drop_zero, Nat.zero_add, Nat.zero_max] at e3 hjb
            have : bs.length = j := by rw [← e3, List.length_take]; omega
            rw [this, ← hsize]
            exact hj
        · intro m
          rw [← e, destroy_file, b3]
          unfold Os.file
          rw [e1]
          show Option.map _ (os₀.names m) = _
          by_cases hm : m = name
          · rw [hm, h8, hex.1, Option.map_some, Option.map_some, push_content, hex.2]
          · rw [h9 m hm]
            cases hi : os.names m with
            | none => rfl
            | some i =>
              rw [Option.map_some, Option.map_some, push_content]
              by_cases hik : i = k
              · rw [hik, hex.2]
              · rw [h11 i hik]

end Handles

/-- C117 (part): `FileUtil::read` returns the contents of the file, if the system reads everything at once, and changes no
file.  (For other systems see `C117_short_read`.) -/
theorem C117_read_whole_partial (S : Sys) (hS : S.Sane) (hall : S.ReadsAll) (os os' : Os) (hs : os.Sound) (name : Str)
    (r : List (Option UInt8)) (hr : readWhole S os name = (os', .ok r)) :
    ∃ content, os.file name = some content ∧ r = content.map some ∧ ∀ n, os'.file n = os.file n := by
  obtain ⟨content, k, os₁, fd, h1, h2, h3, ⟨d, hd, h4, h5⟩, h6, h7⟩ := readWhole_ok hS hs hr
  have hk := hall _ _ _ _ _ h6 hd
  rw [h4, h5] at hk
  have : k = content.length := by omega
  subst this
  refine ⟨content, h1, ?_, h7⟩
  rw [h3]
  simp

/-- C117, violated by the code: what `FileUtil::read` returns has the size of the file even if the system has read less (as
it does for files of more than 2 GiB), without an error; the rest is not initialised. -/
theorem C117_short_read (S : Sys) (hS : S.Sane) (os os' : Os) (hs : os.Sound) (name : Str)
    (r : List (Option UInt8)) (hr : readWhole S os name = (os', .ok r)) :
    ∃ content k, os.file name = some content ∧ r.length = content.length ∧ k ≤ content.length ∧
      r.take k = (content.take k).map some ∧ r.drop k = List.replicate (content.length - k) none ∧
      (∃ os₁ fd, S.readCount os₁ fd content.length = some k) := by
  obtain ⟨content, k, os₁, fd, h1, h2, h3, _, h6, _⟩ := readWhole_ok hS hs hr
  refine ⟨content, k, h1, ?_, h2, ?_, ?_, os₁, fd, h6⟩
  · rw [h3]; simp; omega
  · rw [h3, List.take_append_of_le_length (by simp; omega), List.take_of_length_le (by simp; omega)]
  · rw [h3, List.drop_append_of_le_length (by simp; omega), List.drop_of_length_le (by simp; omega), List.nil_append]

/-- C117: what was written is read. -/
theorem C117_round_trip (S : Sys) (hS : S.Sane) (hall : S.ReadsAll) (os os₁ os₂ : Os) (hs : os.Sound) (name : Str) (bs : Bytes)
    (r : List (Option UInt8)) (hw : writeWhole S os name bs = (os₁, .ok ())) (hr : readWhole S os₁ name = (os₂, .ok r)) :
    r = bs.map some := by
  obtain ⟨h1, _, h3⟩ := C117_write_whole S hS os os₁ hs name bs hw
  obtain ⟨c, h4, h5, _⟩ := C117_read_whole_partial S hS hall os₁ os₂ h3 name r hr
  rw [h1] at h4
  cases h4
  exact h5

/-- C117, violated by the code: a file that is opened with `O_APPEND` is not appended to: the bytes are written over its
beginning. -/
theorem C117_append_ignored (S : Sys) (hS : S.Sane) (os os₁ os₂ : Os) (hs : os.Sound) (name : Str) (old bs : Bytes)
    (hold : os.file name = some old) (hne : bs ≠ []) (h : Handle)
    (ho : openFile S os name { write := true, createOrOpen := true, append := true } = (os₁, .ok h))
    (hw : h.write S os₁ bs = (os₂, .ok ())) :
    ∃ v, h.view os₂ = some v ∧ v.content = bs ++ old.drop bs.length := by
  obtain ⟨fd, content, h1, h2, h3, _, _, _, _, h7⟩ := C117_opened S hS os os₁ hs name _ h ho
  obtain ⟨_, _, v', g1, _, _, _, g5⟩ := C117_write S os₁ os₂ h7 h _ h3 bs hw hne
  refine ⟨v', g1, ?_⟩
  rw [g5, h2, hold]
  simp

/-- C117, violated by the code: when `FileUtil::write` fails, the old contents of the file are lost: what remains is a part
of the new ones. -/
theorem C117_failed_write (S : Sys) (os os' : Os) (hs : os.Sound) (name : Str) (bs : Bytes) (e : Raised)
    (hw : writeWhole S os name bs = (os', .error e)) (hopen : S.openAt os name ≠ none) (hrw : S.Sane) :
    ∃ k, os'.file name = some (bs.take k) := by
  unfold writeWhole at hw
  split at hw
  · rename_i e' ho
    exfalso
    unfold openFile sysOpen at ho
    cases h5 : S.openAt os name with
    | none => exact hopen h5
    | some fd => cases h6 : os.names name <;> simp [h5, h6] at ho
  · rename_i os₁ h ho
    split at hw
    rename_i os₂ r hwr
    obtain ⟨rfl, rfl⟩ := Prod.mk.inj hw
    obtain ⟨fd, k, os₀, h1, rfl, h3, h4, h5, h6, h7, e, h8, h9, h10, h11, _, h12⟩ := open_ok hs ho
    simp only [Bool.false_eq_true, if_false] at e
    have hd : os₁.desc fd = some ⟨k, 0, false, true⟩ := by rw [e]; exact desc_push os₀ fd _
    have hkc : os₁.content k = [] := by
      rw [e, push_content]
      rcases h12 with ⟨_, _, g⟩ | ⟨_, _, g⟩
      · simpa using g
      · exact g
    have hk1 : k < os₁.data.length := by rw [e]; exact h4
    have hn : os₁.names name = some k := by rw [e]; exact h8
    unfold Handle.write at hwr
    simp only [hd, if_true] at hwr
    split at hwr
    · obtain ⟨e1, _⟩ := Prod.mk.inj hwr
      subst e1
      refine ⟨0, ?_⟩
      rw [destroy_file]
      unfold Os.file
      rw [hn, Option.map_some, hkc]; rfl
    · rename_i j hj
      obtain ⟨e1, e2⟩ := Prod.mk.inj hwr
      refine ⟨j, ?_⟩
      rw [destroy_file]
      unfold Os.file
      rw [← e1, moveTo_names, hn, Option.map_some, moveTo_content, content_set hk1, if_pos rfl, hkc]
      unfold overwrite
      split
      · rename_i hb; rw [hb]
      · simp

/-! ## Descriptors -/

namespace Handles

/-- The books of a program: the descriptors that are open are those of the beginning and those of its objects, and no two
objects have the same. -/
structure Tidy (base : Nat → Bool) (s : Os × Objects) : Prop where
  sound : s.1.Sound
  isOpen : ∀ k, s.1.isOpen k ↔ base k = true ∨ ∃ i h, s.2 i = some h ∧ h.fd = some k
  own : ∀ i h k, s.2 i = some h → h.fd = some k → base k = false
  one : ∀ i j h h' k, s.2 i = some h → s.2 j = some h' → h.fd = some k → h'.fd = some k → i = j

theorem tidy_same {base : Nat → Bool} {os os' : Os} {o : Objects} (h : Tidy base (os, o)) (hs : os'.Sound)
    (e : os'.fds = os.fds) : Tidy base (os', o) := by
  refine ⟨hs, ?_, h.own, h.one⟩
  intro k
  unfold Os.isOpen
  rw [e]
  exact h.isOpen k

theorem tidy_new {base : Nat → Bool} {os os' : Os} {o : Objects} (h : Tidy base (os, o)) {i : Nat} {hd : Handle} {fd x : Nat}
    (hi : o i = none) (hs : os'.Sound) (hf : hd.fd = some fd) (hfree : os.fds fd = none)
    (e : ∀ k, os'.fds k = if k = fd then some x else os.fds k) : Tidy base (os', o.put i hd) := by
  have hno : ¬ os.isOpen fd := fun hn => hn hfree
  have hbase : base fd = false := by
    cases hb : base fd with
    | false => rfl
    | true => exact absurd ((h.isOpen fd).2 (.inl hb)) hno
  have hnone : ∀ j h', o j = some h' → h'.fd ≠ some fd := fun j h' hj hh => hno ((h.isOpen fd).2 (.inr ⟨j, h', hj, hh⟩))
  refine ⟨hs, ?_, ?_, ?_⟩
  · intro k
    have hk : os'.isOpen k ↔ os.isOpen k ∨ k = fd := by
      unfold Os.isOpen
      rw [e]
      by_cases hk : k = fd <;> simp [hk]
    rw [hk, h.isOpen k]
    constructor
    · rintro ((hb | ⟨j, h', hj, hh⟩) | rfl)
      · exact .inl hb
      · refine .inr ⟨j, h', ?_, hh⟩
        have : j ≠ i := fun e => by simp only at hj; rw [e, hi] at hj; cases hj
        simp [Objects.put, this]; exact hj
      · exact .inr ⟨i, hd, by simp [Objects.put], hf⟩
    · rintro (hb | ⟨j, h', hj, hh⟩)
      · exact .inl (.inl hb)
      · simp only [Objects.put] at hj
        split at hj
        · cases hj
          rw [hf] at hh
          cases hh
          exact .inr rfl
        · exact .inl (.inr ⟨j, h', hj, hh⟩)
  · intro j h' k hj hh
    simp only [Objects.put] at hj
    split at hj
    · cases hj
      rw [hf] at hh
      cases hh
      exact hbase
    · exact h.own j h' k hj hh
  · intro a b h1 h2 k ha hb hk1 hk2
    simp only [Objects.put] at ha hb
    split at ha <;> split at hb
    · omega
    · cases ha
      rw [hf] at hk1
      cases hk1
      exact absurd hk2 (hnone b h2 hb)
    · cases hb
      rw [hf] at hk2
      cases hk2
      exact absurd hk1 (hnone a h1 ha)
    · exact h.one a b h1 h2 k ha hb hk1 hk2

theorem does_tidy {S : Sys} (hS : S.Sane) {base : Nat → Bool} {a : Act} {s s' : Os × Objects} (hd : Does S a s s')
    (h : Tidy base s) : Tidy base s' ∧ s'.1.badClose = s.1.badClose := by
  cases hd with
  | @opened i name fl os o os' hd hi ho =>
    obtain ⟨fd, x, rfl, h1, h2, h3⟩ := open_fds h.sound ho
    obtain ⟨_, _, _, _, _, _, _, _, _, hs⟩ := C117_opened S hS os os' h.sound name fl _ ho
    exact ⟨tidy_new h hi hs rfl (hS.openAt _ _ _ h1) h3, h2⟩
  | refused hi ho => cases open_error ho; exact ⟨h, rfl⟩
  | @moved i j os o hd hi hj =>
    refine ⟨⟨h.sound, ?_, ?_, ?_⟩, rfl⟩
    · intro k
      rw [h.isOpen k]
      have hij : i ≠ j := fun e => by rw [e, hj] at hi; cases hi
      constructor
      · rintro (hb | ⟨a, h', ha, hh⟩)
        · exact .inl hb
        · by_cases haj : a = j
          · subst haj
            simp only at ha
            rw [hj] at ha
            cases ha
            exact .inr ⟨i, hd, by simp [Objects.put, hij, Handle.moveNew], hh⟩
          · have hai : a ≠ i := fun e => by simp only at ha; rw [e, hi] at ha; cases ha
            exact .inr ⟨a, h', by simp [Objects.put, haj, hai]; exact ha, hh⟩
      · rintro (hb | ⟨a, h', ha, hh⟩)
        · exact .inl hb
        · simp only [Objects.put, Handle.moveNew] at ha
          split at ha
          · cases ha; cases hh
          · split at ha
            · cases ha; exact .inr ⟨j, hd, hj, hh⟩
            · exact .inr ⟨a, h', ha, hh⟩
    · intro a h' k ha hh
      simp only [Objects.put, Handle.moveNew] at ha
      split at ha
      · cases ha; cases hh
      · split at ha
        · cases ha; exact h.own j hd k hj hh
        · exact h.own a h' k ha hh
    · intro a b h1 h2 k ha hb hk1 hk2
      simp only [Objects.put, Handle.moveNew] at ha hb
      split at ha
      · cases ha; cases hk1
      · split at hb
        · cases hb; cases hk2
        · rename_i haj hbj
          split at ha <;> split at hb
          · omega
          · cases ha
            exact absurd (h.one j b hd h2 k hj hb hk1 hk2).symm hbj
          · cases hb
            exact absurd (h.one a j h1 hd k ha hj hk1 hk2) haj
          · exact h.one a b h1 h2 k ha hb hk1 hk2
  | @cloned i j os o os' hd hd' hi hj hc =>
    unfold Handle.clone at hc
    split at hc
    · cases (Prod.mk.inj hc).2
    · rename_i fd hfd
      split at hc
      · cases (Prod.mk.inj hc).2
      · rename_i x hx
        split at hc
        · cases (Prod.mk.inj hc).2
        · rename_i fd' hdup
          obtain ⟨e1, e2⟩ := Prod.mk.inj hc
          cases e2
          subst e1
          refine ⟨tidy_new h hi ⟨h.sound.names, ?_, h.sound.nodes⟩ rfl (hS.dupTo _ _ _ hdup) fun k => rfl, rfl⟩
          intro k y hy
          simp only at hy
          split at hy
          · cases hy; exact h.sound.fds fd x hx
          · exact h.sound.fds k y hy
  | @uncloned i j os o os' hd e hi hj hc =>
    unfold Handle.clone at hc
    repeat' split at hc
    all_goals obtain ⟨e1, e2⟩ := Prod.mk.inj hc
    all_goals first | cases e2 | skip
    all_goals subst e1; exact ⟨h, rfl⟩
  | @destroyed i os o hd hi =>
    unfold Handle.destroy
    split
    · rename_i fd hfd
      have hop : os.fds fd ≠ none := (h.isOpen fd).2 (.inr ⟨i, hd, hi, hfd⟩)
      obtain ⟨c1, c2⟩ := close_open hop
      refine ⟨⟨sound_close h.sound fd, ?_, ?_, ?_⟩, c1⟩
      · intro k
        have hk : (sysClose os fd).isOpen k ↔ os.isOpen k ∧ k ≠ fd := by
          unfold Os.isOpen
          rw [c2]
          by_cases hk : k = fd <;> simp [hk]
        simp only at hk ⊢
        rw [hk, h.isOpen k]
        constructor
        · rintro ⟨hb | ⟨j, h', hj, hh⟩, hne⟩
          · exact .inl hb
          · refine .inr ⟨j, h', ?_, hh⟩
            have hji : j ≠ i := fun e => by
              subst e
              simp only at hj
              rw [hi] at hj
              cases hj
              rw [hfd] at hh
              cases hh
              exact hne rfl
            simp [Objects.drop, hji]
            exact hj
        · rintro (hb | ⟨j, h', hj, hh⟩)
          · refine ⟨.inl hb, fun e => ?_⟩
            subst e
            rw [h.own i hd k hi hfd] at hb
            cases hb
          · simp only [Objects.drop] at hj
            split at hj
            · cases hj
            · rename_i hji
              refine ⟨.inr ⟨j, h', hj, hh⟩, fun e => ?_⟩
              subst e
              exact hji (h.one j i h' hd k hj hi hh hfd)
      · intro j h' k hj hh
        simp only [Objects.drop] at hj
        split at hj
        · cases hj
        · exact h.own j h' k hj hh
      · intro a b h1 h2 k ha hb hk1 hk2
        simp only [Objects.drop] at ha hb
        split at ha
        · cases ha
        · split at hb
          · cases hb
          · exact h.one a b h1 h2 k ha hb hk1 hk2
    · rename_i hfd
      refine ⟨⟨h.sound, ?_, ?_, ?_⟩, rfl⟩
      · intro k
        rw [h.isOpen k]
        constructor
        · rintro (hb | ⟨j, h', hj, hh⟩)
          · exact .inl hb
          · refine .inr ⟨j, h', ?_, hh⟩
            have hji : j ≠ i := fun e => by
              subst e
              simp only at hj
              rw [hi] at hj
              cases hj
              rw [hfd] at hh
              cases hh
            simp [Objects.drop, hji]
            exact hj
        · rintro (hb | ⟨j, h', hj, hh⟩)
          · exact .inl hb
          · simp only [Objects.drop] at hj
            split at hj
            · cases hj
            · exact .inr ⟨j, h', hj, hh⟩
      · intro j h' k hj hh
        simp only [Objects.drop] at hj
        split at hj
        · cases hj
        · exact h.own j h' k hj hh
      · intro a b h1 h2 k ha hb hk1 hk2
        simp only [Objects.drop] at ha hb
        split at ha
        · cases ha
        · split at hb
          · cases hb
          · exact h.one a b h1 h2 k ha hb hk1 hk2
  | sought hi hr => exact ⟨tidy_same h (seek_sound h.sound hr) (seek_fds hr).1, (seek_fds hr).2⟩
  | done hi hr => exact ⟨tidy_same h (read_sound h.sound hr) (read_fds hr).1, (read_fds hr).2⟩
  | written hi hr => exact ⟨tidy_same h (write_sound h.sound hr) (write_fds hr).1, (write_fds hr).2⟩
  | truncated hi hr => exact ⟨tidy_same h (truncate_sound h.sound hr) (truncate_fds hr).1, (truncate_fds hr).2⟩

theorem all_tidy {S : Sys} (hS : S.Sane) {base : Nat → Bool} {as : List Act} {s s' : Os × Objects} (hd : AllDo S as s s')
    (h : Tidy base s) : Tidy base s' ∧ s'.1.badClose = s.1.badClose := by
  induction hd with
  | nil s => exact ⟨h, rfl⟩
  | cons h1 _ ih =>
    obtain ⟨g1, g2⟩ := does_tidy hS h1 h
    obtain ⟨g3, g4⟩ := ih g1
    exact ⟨g3, g4.trans g2⟩

end Handles

/-- C118: whatever a program does with `File` objects, however often they are moved and cloned and whatever fails: no
descriptor is closed that is not open, every open descriptor is one of the beginning or belongs to just one object. -/
theorem C118_descriptors (S : Sys) (hS : S.Sane) (os os' : Os) (hs : os.Sound) (as : List Act) (o : Objects)
    (h : AllDo S as (os, fun _ => none) (os', o)) :
    os'.badClose = os.badClose ∧
    (∀ k, os'.isOpen k ↔ os.isOpen k ∨ ∃ i hd, o i = some hd ∧ hd.fd = some k) ∧
    (∀ i hd k, o i = some hd → hd.fd = some k → ¬ os.isOpen k) ∧
    (∀ i j h h' k, o i = some h → o j = some h' → h.fd = some k → h'.fd = some k → i = j) := by
  have hb : ∀ k, os.isOpen k ↔ (os.fds k).isSome = true := by
    intro k
    unfold Os.isOpen
    cases os.fds k <;> simp
  have h0 : Handles.Tidy (fun k => (os.fds k).isSome) (os, fun _ => none) :=
    ⟨hs, fun k => by simp [hb k], fun i h k hi => by simp at hi, fun i j h h' k hi => by simp at hi⟩
  obtain ⟨g1, g2⟩ := all_tidy hS h h0
  refine ⟨g2, fun k => ?_, fun i hd k hi hh => ?_, g1.one⟩
  · rw [hb k]; exact g1.isOpen k
  · rw [hb k, g1.own i hd k hi hh]; simp

/-- C118: when all objects are gone, no descriptor is left open. -/
theorem C118_no_leak (S : Sys) (hS : S.Sane) (os os' : Os) (hs : os.Sound) (as : List Act)
    (h : AllDo S as (os, fun _ => none) (os', fun _ => none)) : ∀ k, os'.isOpen k ↔ os.isOpen k := by
  intro k
  rw [(C118_descriptors S hS os os' hs as _ h).2.1 k]
  simp

/-! ## A concrete case -/

namespace Handles

/-- A system with the descriptors 3 and 4 that transfers everything. -/
def plain : Sys where
  openAt := fun os _ => if os.fds 3 = none then some 3 else if os.fds 4 = none then some 4 else none
  dupTo := fun os _ => if os.fds 3 = none then some 3 else if os.fds 4 = none then some 4 else none
  readCount := fun os fd n => (os.desc fd).map fun d => min n ((os.content d.node).length - d.offset)
  writeCount := fun _ _ n => some n
  stat := fun _ _ => true
  seek := fun _ _ _ => true
  trunc := fun _ _ _ => true

theorem plain_sane : plain.Sane := by
  refine ⟨?_, ?_, ?_, ?_⟩
  · intro os name fd h
    simp only [plain] at h
    split at h
    · cases h; assumption
    · split at h
      · cases h; assumption
      · cases h
  · intro os fd fd' h
    simp only [plain] at h
    split at h
    · cases h; assumption
    · split at h
      · cases h; assumption
      · cases h
  · intro os fd n k d h hd
    simp only [plain, hd, Option.map_some, Option.some.injEq] at h
    omega
  · intro os fd n k h
    simp only [plain, Option.some.injEq] at h
    omega

theorem plain_all : plain.ReadsAll := by
  intro os fd n k d h hd
  simp only [plain, hd, Option.map_some, Option.some.injEq] at h
  exact h.symm

/-- A system with one file, of the name a. -/
def start : Os := ⟨fun n => if n = ['a'] then some 0 else none, [[7, 8, 9, 10]], [], fun _ => none, 0⟩

theorem start_sound : start.Sound := by
  refine ⟨?_, ?_, ?_⟩
  · intro n k h
    simp only [start] at h ⊢
    split at h
    · cases h; simp
    · cases h
  · intro fd i h; cases h
  · intro d hd; cases hd

example : (writeWhole plain start ['b'] [1, 2, 3]).2 = .ok () ∧
    (readWhole plain (writeWhole plain start ['b'] [1, 2, 3]).1 ['b']).2 = .ok [some 1, some 2, some 3] ∧
    (readWhole plain (writeWhole plain start ['b'] [1, 2, 3]).1 ['a']).2 = .ok [some 7, some 8, some 9, some 10] :=
  ⟨rfl, rfl, rfl⟩

/-- `O_APPEND` overwrites. -/
example : ∃ h os₁ os₂, openFile plain start ['a'] { write := true, createOrOpen := true, append := true } = (os₁, .ok h) ∧
    h.write plain os₁ [1, 2] = (os₂, .ok ()) ∧ os₂.file ['a'] = some [1, 2, 9, 10] := ⟨_, _, _, rfl, rfl, rfl⟩

/-- A system that reads one byte at a time. -/
example : (readWhole { plain with readCount := fun _ _ n => some (min n 1) } start ['a']).2 = .ok [some 7, none, none, none] := rfl

/-- A file is opened, moved, cloned and read; then all objects are destroyed. -/
example : ∃ os' o, AllDo plain [.openFile 0 ['a'] { read := true }, .moveNew 1 0, .clone 2 1, .read 2 3, .destroy 0, .destroy 1,
    .destroy 2] (start, fun _ => none) (os', o) ∧ (o = fun _ => none) ∧ os'.descs.map (·.offset) = [3] := by
  refine ⟨_, _, .cons (.opened rfl rfl) (.cons (.moved rfl rfl) (.cons (.cloned rfl rfl rfl) (.cons (.done rfl rfl)
    (.cons (.destroyed rfl) (.cons (.destroyed rfl) (.cons (.destroyed rfl) (.nil _))))))), ?_, rfl⟩
  funext k
  simp only [Objects.drop, Objects.put]
  by_cases h0 : k = 0 <;> by_cases h1 : k = 1 <;> by_cases h2 : k = 2 <;> simp [h0, h1, h2]

/-- What C118 counts: closing a descriptor that is not open. -/
example (os : Os) (fd : Nat) (h : ¬ os.isOpen fd) : (sysClose os fd).badClose = os.badClose + 1 := by
  unfold Os.isOpen at h
  unfold sysClose
  cases hf : os.fds fd <;> simp_all

end Handles
end Clip
