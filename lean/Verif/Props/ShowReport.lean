import Verif.Spec.ShowReport
import Mathlib.Data.List.TakeWhile
/-!
# C146: writing and showing reports
-/
namespace TC
namespace Report

theorem uptoSlash_plain {p : Str} (h : PlainName p) : uptoSlash p = [] := by
  unfold uptoSlash
  have : p.reverse.dropWhile (fun c => decide (c ≠ '/')) = [] := by
    rw [List.dropWhile_eq_nil_iff]
    intro c hc
    rw [decide_eq_true_iff]
    rintro rfl
    exact h (List.mem_reverse.1 hc)
  rw [this]
  rfl

theorem dirname_plain {p : Str} (h : PlainName p) : dirname p = [] := by
  unfold dirname
  rw [uptoSlash_plain h]
  rfl

theorem dropWhile_length_lt {α : Type} {f : α → Bool} {l : List α} {a : α} (h : l.head? = some a) (ha : f a = true) :
    (l.dropWhile f).length < l.length := by
  cases l with
  | nil => cases h
  | cons b l =>
    cases h
    rw [List.dropWhile_cons_of_pos ha]
    exact Nat.lt_succ_of_le (List.dropWhile_sublist f).length_le

theorem dirname_length {p : Str} (hne : p ≠ []) (hl : p.getLast? ≠ some '/') : (dirname p).length < p.length := by
  have h1 : (uptoSlash p).length < p.length := by
    unfold uptoSlash
    rw [List.length_reverse, ← List.length_reverse (as := p)]
    obtain ⟨c, hc⟩ : ∃ c, p.reverse.head? = some c := by
      cases hr : p.reverse with
      | nil => exact absurd (List.reverse_eq_nil_iff.1 hr) hne
      | cons c l => exact ⟨c, rfl⟩
    refine dropWhile_length_lt hc ?_
    rw [List.head?_reverse] at hc
    rw [decide_eq_true_iff]
    rintro rfl
    exact hl hc
  unfold dirname
  simp only
  split_ifs
  · exact h1
  · rw [List.length_reverse]
    refine lt_of_le_of_lt (List.dropWhile_sublist _).length_le ?_
    rwa [List.length_reverse]

theorem saved_write {d : Disk} {p text : Str} :
    Saved d { d with files := (p, text) :: d.files.filter (fun f => decide (f.1 ≠ p)) } p text := by
  refine ⟨?_, ?_⟩
  · unfold Disk.content
    simp
  · intro q hq
    unfold Disk.content
    simp only
    rw [List.find?_cons_of_neg (by simpa using fun h => hq h.symm), List.find?_filter]
    congr 1
    congr 1
    funext f
    by_cases hf : f.1 = q
    · simp [hf, hq]
    · simp [hf]

/-- **C146**: a report can be written to any path whose directory exists; all other files stay as they are. -/
theorem C146_write {d : Disk} {p text : Str} (hne : p ≠ []) (hd : PlainName p ∨ dirname p ∈ d.dirs) (hp : p ∉ d.dirs)
    (hf : dirname p ∉ d.files.map Prod.fst) :
    ∃ d', writeReport p text d = (.ok (), d') ∧ Saved d d' p text ∧ d'.dirs = d.dirs := by
  unfold writeReport Disk.write
  rw [if_neg hne, if_neg hp, if_neg hf, if_pos]
  · exact ⟨_, rfl, saved_write, rfl⟩
  · unfold Disk.parent
    rcases hd with hd | hd
    · simp [dirname_plain hd]
    · simp [hd]

/-- **C146** does not hold for showing a report: with the default path and for every file in the current directory it raises
`FileNotFoundError`, and nothing is written. -/
theorem C146_plain_name_fails {p : Str} (h : PlainName p) (random text : Str) (d : Disk) :
    showReport random text p d = (.error .notFound, d) := by
  unfold showReport
  rw [dirname_plain h]
  simp only
  have : d.exists [] = false := by simp [Disk.exists]
  rw [this]
  simp [Disk.mkdir]

/-- **C146**: a report is shown, and is then in the file, if the path names a directory that exists. -/
theorem C146_show_partial {d : Disk} {p text : Str} (random : Str) (hp : p ∉ d.dirs) (hn : dirname p ≠ [])
    (hd : dirname p ∈ d.dirs) (hf : dirname p ∉ d.files.map Prod.fst) :
    ∃ d', showReport random text p d = (.ok p, d') ∧ Saved d d' p text ∧ d'.dirs = d.dirs := by
  have hne : p ≠ [] := by
    rintro rfl
    exact hn rfl
  have he : d.exists (dirname p) = true := by simp [Disk.exists, hn, hd]
  obtain ⟨d', h1, h2, h3⟩ := C146_write (text := text) hne (Or.inr hd) hp hf
  refine ⟨d', ?_, h2, h3⟩
  unfold showReport
  simp only [he, if_true, if_neg hne]
  unfold writeReport at h1
  rw [h1]

/-- **C146**: a missing directory is made, if the directory it belongs to exists. -/
theorem C146_new_directory_partial {d : Disk} {p text : Str} (random : Str) (hp : p ∉ d.dirs) (hl : p.getLast? ≠ some '/')
    (hn : dirname p ≠ []) (hd : dirname p ∉ d.dirs) (hf : dirname p ∉ d.files.map Prod.fst)
    (hu : PlainName (dirname p) ∨ dirname (dirname p) ∈ d.dirs) :
    ∃ d', showReport random text p d = (.ok p, d') ∧ Saved d d' p text ∧ d'.dirs = dirname p :: d.dirs := by
  have hne : p ≠ [] := by
    rintro rfl
    exact hn rfl
  have he : d.exists (dirname p) = false := by
    rw [Bool.eq_false_iff]
    unfold Disk.exists
    rw [ne_eq, decide_eq_true_iff]
    rintro ⟨-, h | h⟩
    · exact hd h
    · exact hf h
  have hm : d.mkdir (dirname p) = (.ok (), { d with dirs := dirname p :: d.dirs }) := by
    unfold Disk.mkdir
    rw [if_neg hn, if_pos]
    unfold Disk.parent
    rcases hu with hu | hu
    · simp [dirname_plain hu]
    · simp [hu]
  have hpd : p ∉ dirname p :: d.dirs := by
    rw [List.mem_cons]
    rintro (h | h)
    · have := dirname_length hne hl
      rw [← h] at this
      exact absurd this (lt_irrefl _)
    · exact hp h
  obtain ⟨d', h1, h2, h3⟩ := C146_write (d := { d with dirs := dirname p :: d.dirs }) (text := text) hne
    (Or.inr (by simp)) hpd hf
  refine ⟨d', ?_, ⟨h2.saved, h2.others⟩, h3⟩
  unfold showReport
  simp only [he, hm, if_neg hne]
  unfold writeReport at h1
  simpa using by rw [h1]

/-- **C146** does not hold for directories in directories that do not exist: nothing is written. -/
theorem C146_missing_parent_fails {d : Disk} {p : Str} (random text : Str) (hd : dirname p ∉ d.dirs)
    (hf : dirname p ∉ d.files.map Prod.fst) (hs : ¬ PlainName (dirname p)) (hnn : dirname (dirname p) ≠ [])
    (hu : dirname (dirname p) ∉ d.dirs) :
    showReport random text p d = (.error .notFound, d) := by
  have he : d.exists (dirname p) = false := by
    rw [Bool.eq_false_iff]
    unfold Disk.exists
    rw [ne_eq, decide_eq_true_iff]
    rintro ⟨-, h | h⟩
    · exact hd h
    · exact hf h
  have hm : d.mkdir (dirname p) = (.error .notFound, d) := by
    unfold Disk.mkdir Disk.parent
    rw [if_neg (by rintro h; rw [h] at hs; exact hs (by simp [PlainName])), if_neg (by simp [hnn, hu])]
  unfold showReport
  simp [he, hm]

/-- a disk with one directory and two reports -/
def exDisk : Disk :=
  { dirs := ["/home".toList, "out".toList], files := [("out/a.html".toList, "old".toList), ("b.html".toList, "kept".toList)] }

/-- the call without a path -/
example : showReport "cafe".toList "new".toList [] exDisk = (.error .notFound, exDisk) := by decide
example : showReport "cafe".toList "new".toList "report.html".toList exDisk = (.error .notFound, exDisk) := by decide
example : (writeReport "report.html".toList "new".toList exDisk).2.content "report.html".toList = some "new".toList := by decide
example : "out/a.html".toList ∉ exDisk.dirs ∧ dirname "out/a.html".toList = "out".toList ∧ "out".toList ∈ exDisk.dirs ∧
    "out".toList ∉ exDisk.files.map Prod.fst := by decide
example : ((showReport "cafe".toList "new".toList "out/a.html".toList exDisk).2.content "out/a.html".toList,
    (showReport "cafe".toList "new".toList "out/a.html".toList exDisk).2.content "b.html".toList) =
    (some "new".toList, some "kept".toList) := by decide
example : dirname "/home/x/c.html".toList = "/home/x".toList ∧ dirname "/home/x".toList = "/home".toList ∧
    "/home/x".toList ∉ exDisk.dirs := by decide
example : ((showReport "cafe".toList "new".toList "/home/x/c.html".toList exDisk).2.dirs) =
    ["/home/x".toList, "/home".toList, "out".toList] := by decide
example : showReport "cafe".toList "new".toList "/home/x/y/c.html".toList exDisk = (.error .notFound, exDisk) := by decide

end Report
end TC
