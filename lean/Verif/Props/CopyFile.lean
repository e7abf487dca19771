/- What is true of copied files and of a download. -/
import Verif.Model.CopyFile

namespace Verif.CopyFile

theorem copyLoop_eq (length : Nat) (h : length ≠ 0) (src done : Bytes) : copyLoop length src done = done ++ src := by
  induction hn : src.length using Nat.strongRecOn generalizing src done with
  | ind n ih =>
    unfold copyLoop
    by_cases hs : src = []
    · simp [hs]
    · rw [dif_neg (by simp [h, hs])]
      have hp := List.length_pos_iff.2 hs
      rw [ih (src.drop length).length (by simp only [List.length_drop]; omega) _ _ rfl, List.append_assoc,
        List.take_append_drop]

theorem bufferSize_ne (n : Nat) : bufferSize n ≠ 0 := by
  unfold bufferSize
  split <;> omega

/-- The bytes of a file do not change, whatever its size is. -/
theorem bytes_kept (b : Bytes) : copyLoop (bufferSize b.length) b [] = b := by
  rw [copyLoop_eq _ (bufferSize_ne _), List.nil_append]

theorem mkdir_file (fs : FS) (parent : Path) (name : Str) : (mkdir fs parent name).1.file = fs.file := by
  unfold mkdir
  split
  · rfl
  · split <;> rfl

theorem mkdir_dirs (fs : FS) (parent : Path) (name : Str) (d : Path) :
    d ∈ (mkdir fs parent name).1.dirs → d ∈ fs.dirs ∨ d = parent ++ [name] := by
  unfold mkdir
  split
  · exact .inl
  · split
    · exact .inl
    · intro h
      rcases List.mem_cons.1 h with h | h
      · exact .inr h
      · exact .inl h

/-- A default file arrives in the archive byte for byte, and no other file changes, whatever was at its place before:
if the folder of the archive is there, and no file has the name of the subfolder, and no folder that of the file. -/
theorem copied (fs : FS) (save defaults : Path) (folder id : Str) (b : Bytes)
    (hsrc : fs.file (defaults ++ [id ++ c!".xml"]) = some b) (hsave : save ∈ fs.dirs)
    (hfolder : fs.file (save ++ [folder]) = none) (hdst : save ++ [folder] ++ [id ++ c!".xml"] ∉ fs.dirs)
    (hne : defaults ≠ save ++ [folder]) :
    ∃ fs', copyFile fs save defaults folder id = (fs', none) ∧
      fs'.file (save ++ [folder] ++ [id ++ c!".xml"]) = some b ∧
      (∀ q, q ≠ save ++ [folder] ++ [id ++ c!".xml"] → fs'.file q = fs.file q) ∧
      ∀ d, d ∈ fs'.dirs ↔ d ∈ fs.dirs ∨ d = save ++ [folder] := by
  have hm : ∃ fs1, mkdir fs save folder = (fs1, none) ∧ fs1.file = fs.file ∧
      ∀ d, d ∈ fs1.dirs ↔ d ∈ fs.dirs ∨ d = save ++ [folder] := by
    unfold mkdir
    by_cases h : save ++ [folder] ∈ fs.dirs
    · rw [if_pos h]
      refine ⟨fs, rfl, rfl, fun d => ⟨.inl, ?_⟩⟩
      rintro (h' | rfl)
      · exact h'
      · exact h
    · rw [if_neg h, if_neg (by simp [hfolder, hsave])]
      refine ⟨_, rfl, rfl, fun d => ?_⟩
      simp only [List.mem_cons]
      exact or_comm
  obtain ⟨fs1, h1, h2, h3⟩ := hm
  have hd1 : save ++ [folder] ++ [id ++ c!".xml"] ∉ fs1.dirs := by
    rw [h3]
    rintro (h | h)
    · exact hdst h
    · simp at h
  have hsd : defaults ++ [id ++ c!".xml"] ≠ save ++ [folder] ++ [id ++ c!".xml"] :=
    fun h => hne (List.append_cancel_right h)
  unfold copyFile
  simp only [h1]
  unfold copyBytes
  rw [h2, hsrc]
  simp only [hd1, if_false]
  refine ⟨_, rfl, ?_, ?_, ?_⟩
  · simp only [FS.write, if_true, hsd, if_false, h2, hsrc, Option.getD_some, bytes_kept]
  · intro q hq
    simp only [FS.write, hq, if_false, h2]
  · exact h3

/-- A flow that the package does not have stops the conversion, and no file changes. -/
theorem missing_default (fs : FS) (save defaults : Path) (folder id : Str)
    (h : fs.file (defaults ++ [id ++ c!".xml"]) = none) :
    (copyFile fs save defaults folder id).2 = some .osError ∧ (copyFile fs save defaults folder id).1.file = fs.file := by
  have hf := mkdir_file fs save folder
  have he : ∀ fs' e, mkdir fs save folder = (fs', some e) → e = .osError := by
    intro fs' e
    unfold mkdir
    split
    · simp
    · split
      · simp only [Prod.mk.injEq, Option.some.injEq]; exact fun h => h.2.symm
      · simp
  unfold copyFile
  rcases hm : mkdir fs save folder with ⟨fs', _ | e⟩
  · rw [hm] at hf
    simp only at hf
    simp only [copyBytes, hf, h, and_self]
  · rw [hm] at hf
    simp only [he fs' e hm, true_and]
    exact hf

/-- If the archive is made in the folder of the default files itself, the default file is emptied. -/
theorem copied_onto_itself (fs : FS) (save : Path) (folder id : Str) (b : Bytes)
    (hsrc : fs.file (save ++ [folder] ++ [id ++ c!".xml"]) = some b) (hdir : save ++ [folder] ∈ fs.dirs)
    (hdst : save ++ [folder] ++ [id ++ c!".xml"] ∉ fs.dirs) :
    ∃ fs', copyFile fs save (save ++ [folder]) folder id = (fs', none) ∧
      fs'.file (save ++ [folder] ++ [id ++ c!".xml"]) = some [] := by
  have hm : mkdir fs save folder = (fs, none) := by unfold mkdir; rw [if_pos hdir]
  unfold copyFile
  simp only [hm]
  unfold copyBytes
  rw [hsrc]
  simp only [hdst, if_false]
  refine ⟨_, rfl, ?_⟩
  simp only [FS.write, if_true, Option.getD_some]
  rw [copyLoop_eq _ (bufferSize_ne _)]
  rfl

/-- Copying a file again, for a second data set, changes nothing. -/
theorem copied_again (fs : FS) (save defaults : Path) (folder id : Str) (b : Bytes)
    (hsrc : fs.file (defaults ++ [id ++ c!".xml"]) = some b) (hsave : save ∈ fs.dirs)
    (hfolder : fs.file (save ++ [folder]) = none) (hdst : save ++ [folder] ++ [id ++ c!".xml"] ∉ fs.dirs)
    (hne : defaults ≠ save ++ [folder]) {fs1 fs2 : FS} {e : Option PyErr}
    (h1 : copyFile fs save defaults folder id = (fs1, none)) (h2 : copyFile fs1 save defaults folder id = (fs2, e)) :
    e = none ∧ fs2.file = fs1.file := by
  obtain ⟨f1, a1, a2, a3, a4⟩ := copied fs save defaults folder id b hsrc hsave hfolder hdst hne
  rw [h1] at a1
  obtain rfl := (Prod.mk.inj a1).1
  have hsd : defaults ++ [id ++ c!".xml"] ≠ save ++ [folder] ++ [id ++ c!".xml"] :=
    fun h => hne (List.append_cancel_right h)
  have hff : save ++ [folder] ≠ save ++ [folder] ++ [id ++ c!".xml"] := by simp
  obtain ⟨f2, b1, b2, b3, b4⟩ := copied fs1 save defaults folder id b (by rw [a3 _ hsd, hsrc])
    ((a4 _).2 (.inl hsave)) (by rw [a3 _ hff, hfolder]) (by
      rw [a4]
      rintro (h | h)
      · exact hdst h
      · exact hff h.symm) hne
  rw [h2] at b1
  obtain ⟨rfl, rfl⟩ := Prod.mk.inj b1
  refine ⟨rfl, funext fun q => ?_⟩
  by_cases hq : q = save ++ [folder] ++ [id ++ c!".xml"]
  · rw [hq, a2, b2]
  · exact b3 q hq

/-- A file system for the examples. -/
def exFS : FS :=
  ⟨[[], [c!"pkg"], [c!"out"]], fun p => if p = [c!"pkg", c!"a.xml"] then some [1, 2] else none⟩

example : exFS.file ([c!"pkg"] ++ [c!"a" ++ c!".xml"]) = some [1, 2] ∧ [c!"out"] ∈ exFS.dirs ∧
    exFS.file ([c!"out"] ++ [c!"flows"]) = none ∧ [c!"out"] ++ [c!"flows"] ++ [c!"a" ++ c!".xml"] ∉ exFS.dirs ∧
    [c!"pkg"] ≠ [c!"out"] ++ [c!"flows"] ∧ exFS.file ([c!"pkg"] ++ [c!"b" ++ c!".xml"]) = none := by decide

/-! ### download -/

theorem receive_dirs (path : Path) (files : List (Path × Bytes)) (fs : FS) : (receive path fs files).dirs = fs.dirs := by
  induction files generalizing fs with
  | nil => rfl
  | cons p l ih => exact ih _

theorem receive_other (path : Path) (files : List (Path × Bytes)) (fs : FS) (q : Path)
    (h : ∀ p ∈ files, q ≠ path ++ p.1) : (receive path fs files).file q = fs.file q := by
  induction files generalizing fs with
  | nil => rfl
  | cons p l ih =>
    have := ih (fs.write (path ++ p.1) p.2) (fun r hr => h r (List.mem_cons_of_mem _ hr))
    refine Eq.trans this ?_
    simp [FS.write, h p (by simp)]

theorem receive_get (path : Path) (files : List (Path × Bytes)) (hn : (files.map Prod.fst).Nodup) (fs : FS)
    (p : Path × Bytes) (hp : p ∈ files) : (receive path fs files).file (path ++ p.1) = some p.2 := by
  induction files generalizing fs with
  | nil => cases hp
  | cons r l ih =>
    simp only [List.map_cons, List.nodup_cons] at hn
    rcases List.mem_cons.1 hp with rfl | hp
    · refine Eq.trans (receive_other path l _ _ ?_) (by simp [FS.write])
      intro s hs e
      exact hn.1 (List.mem_map.2 ⟨s, hs, (List.append_cancel_left e).symm⟩)
    · exact ih hn.2 _ hp

/-- A folder that is there is taken for complete: nothing is fetched. -/
theorem present_kept (path : Path) (remote : List (Path × Bytes)) (fs : FS) (net : Net) (h : path ∈ fs.dirs) :
    download path remote fs net = fs := by
  have : fs.there path = true := by simp [FS.there, h]
  unfold download
  rw [if_pos this]

/-- The folder is not there, and nothing is below it. -/
def Absent (fs : FS) (path : Path) : Prop := (∀ d ∈ fs.dirs, ¬ path <+: d) ∧ ∀ q, path <+: q → fs.file q = none

theorem there_absent {fs : FS} {path : Path} (h : Absent fs path) : fs.there path = false := by
  have h1 : path ∉ fs.dirs := fun hp => h.1 _ hp (List.prefix_refl _)
  simp [FS.there, h1, h.2 _ (List.prefix_refl _)]

/-- A download that ends gives every file of the repository and leaves the others alone. -/
theorem complete_all (path : Path) (remote : List (Path × Bytes)) (hn : (remote.map Prod.fst).Nodup) (fs : FS)
    (h : Absent fs path) :
    let fs' := download path remote fs .complete
    path ∈ fs'.dirs ∧ (∀ p ∈ remote, fs'.file (path ++ p.1) = some p.2) ∧
      ∀ q, (∀ p ∈ remote, q ≠ path ++ p.1) → fs'.file q = fs.file q := by
  have ht := there_absent h
  simp only [download, ht, Bool.false_eq_true, if_false]
  refine ⟨?_, fun p hp => receive_get path remote hn _ p hp, fun q hq => receive_other path remote _ q hq⟩
  rw [receive_dirs]
  simp [mkdirs]

/-- After a failure the folder is not there, and no file has changed: the next call begins anew. -/
theorem failure_undone (path : Path) (remote : List (Path × Bytes)) (fs : FS) (h : Absent fs path) (n : Nat) :
    Absent (download path remote fs (.fails n)) path ∧ (download path remote fs (.fails n)).file = fs.file := by
  have ht := there_absent h
  simp only [download, ht, Bool.false_eq_true, if_false]
  have hf : (rmtree (receive path (mkdirs fs path) (remote.take n)) path).file = fs.file := by
    funext q
    simp only [rmtree]
    by_cases hq : path <+: q
    · rw [if_pos (List.isPrefixOf_iff_prefix.2 hq), h.2 q hq]
    · rw [if_neg (by rw [List.isPrefixOf_iff_prefix]; exact hq)]
      refine receive_other path _ _ q ?_
      rintro p - rfl
      exact hq ⟨p.1, rfl⟩
  refine ⟨⟨?_, fun q hq => by rw [hf]; exact h.2 q hq⟩, hf⟩
  intro d hd hp
  simp only [rmtree, List.mem_filter] at hd
  simp [List.isPrefixOf_iff_prefix.2 hp] at hd

/-- The folder after any number of calls, none of which ends with the process, is complete iff one of them was. -/
theorem all_or_nothing_partial (path : Path) (remote : List (Path × Bytes)) (hn : (remote.map Prod.fst).Nodup)
    (nets : List Net) (hk : ∀ n, .killed n ∉ nets) :
    ∀ fs, Absent fs path →
      let fs' := nets.foldl (download path remote) fs
      ((∃ net ∈ nets, net = .complete) → path ∈ fs'.dirs ∧ ∀ p ∈ remote, fs'.file (path ++ p.1) = some p.2) ∧
      ((∀ net ∈ nets, net ≠ .complete) → Absent fs' path ∧ fs'.file = fs.file) := by
  induction nets with
  | nil => intro fs h; exact ⟨by simp, fun _ => ⟨h, rfl⟩⟩
  | cons net nets ih =>
    intro fs h
    have hk' : ∀ n, .killed n ∉ nets := fun n hm => hk n (List.mem_cons_of_mem _ hm)
    have keep : ∀ (l : List Net) (fs : FS), path ∈ fs.dirs → l.foldl (download path remote) fs = fs := by
      intro l
      induction l with
      | nil => intro fs _; rfl
      | cons x l ihl =>
        intro fs hp
        rw [List.foldl_cons, present_kept path remote fs x hp]
        exact ihl fs hp
    rw [List.foldl_cons]
    cases net with
    | killed n => exact absurd (by simp) (hk n)
    | complete =>
      obtain ⟨h1, h2, -⟩ := complete_all path remote hn fs h
      rw [keep nets _ h1]
      exact ⟨fun _ => ⟨h1, h2⟩, fun hc => absurd rfl (hc .complete (by simp))⟩
    | fails n =>
      obtain ⟨h1, h2⟩ := failure_undone path remote fs h n
      obtain ⟨a, b⟩ := ih hk' _ h1
      constructor
      · rintro ⟨x, hx, rfl⟩
        rcases List.mem_cons.1 hx with hx | hx
        · cases hx
        · exact a ⟨_, hx, rfl⟩
      · intro hc
        obtain ⟨b1, b2⟩ := b fun x hx => hc x (List.mem_cons_of_mem _ hx)
        exact ⟨b1, b2.trans h2⟩

/-- A process that ends during the transfer leaves a folder with some of the files, which no later call completes. -/
theorem killed_stays (path : Path) (remote : List (Path × Bytes)) (hn : (remote.map Prod.fst).Nodup) (fs : FS)
    (h : Absent fs path) (n : Nat) (nets : List Net) (p : Path × Bytes) (hp : p ∈ remote.drop n) :
    (nets.foldl (download path remote) (download path remote fs (.killed n))).file (path ++ p.1) = none := by
  have ht := there_absent h
  have h0 : download path remote fs (.killed n) = receive path (mkdirs fs path) (remote.take n) := by
    simp [download, ht]
  have hd : path ∈ (download path remote fs (.killed n)).dirs := by
    rw [h0, receive_dirs]; simp [mkdirs]
  have keep : ∀ (l : List Net), l.foldl (download path remote) (download path remote fs (.killed n)) =
      download path remote fs (.killed n) := by
    intro l
    induction l with
    | nil => rfl
    | cons x l ihl => rw [List.foldl_cons, present_kept path remote _ x hd, ihl]
  rw [keep, h0, receive_other]
  · exact h.2 _ ⟨p.1, rfl⟩
  · intro r hr e
    have e := List.append_cancel_left e
    rw [← List.take_append_drop n remote, List.map_append, List.nodup_append] at hn
    exact hn.2.2 r.1 (List.mem_map.2 ⟨r, hr, rfl⟩) p.1 (List.mem_map.2 ⟨p, hp, rfl⟩) e.symm

/-- Even a complete download gives no flow to a conversion: the repository has only folders at this place, so that every
file arrives one folder lower than it is looked for. -/
theorem fetched_not_found (path : Path) (remote : List (Path × Bytes)) (hr : ∀ p ∈ remote, 2 ≤ p.1.length) (fs : FS)
    (h : Absent fs path) (net : Net) (save : Path) (folder id : Str) :
    (copyFile (download path remote fs net) save path folder id).2 = some .osError := by
  have ht := there_absent h
  have hx : ∀ l : List (Path × Bytes), (∀ p ∈ l, 2 ≤ p.1.length) →
      (receive path (mkdirs fs path) l).file (path ++ [id ++ c!".xml"]) = none := by
    intro l hl
    rw [receive_other]
    · exact h.2 _ ⟨_, rfl⟩
    · intro p hp e
      have := hl p hp
      rw [← List.append_cancel_left e] at this
      simp at this
  refine (missing_default _ save path folder id ?_).1
  cases net with
  | complete => simp only [download, ht, Bool.false_eq_true, if_false]; exact hx _ hr
  | killed n =>
    simp only [download, ht, Bool.false_eq_true, if_false]
    exact hx _ fun p hp => hr p (List.mem_of_mem_take hp)
  | fails n => rw [(failure_undone path remote fs h n).2]; exact h.2 _ ⟨_, rfl⟩

example : Absent exFS [c!"pkg", c!"flows"] := by
  refine ⟨by decide, ?_⟩
  rintro q ⟨r, rfl⟩
  simp [exFS]

example : ([([c!"flows", c!"a.xml"], [1]), ([c!"flows", c!"b.xml"], [2])] : List (Path × Bytes)).map Prod.fst |>.Nodup := by
  decide

end Verif.CopyFile
