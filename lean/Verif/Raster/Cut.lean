import Verif.Raster.StreamProps

/-!
# pwg2ppm on damaged files (utils/pwg2ppm_main.cpp), and property C81
-/

namespace Verif.Raster

/-! ## Model -/

/-- pwg2ppm_main.cpp 33-39: one page of PWG, and the rest of the file. -/
def readPwgPage (file : Bytes) : Outcome (PageOut × Bytes) := do
  let x ← PwgHdr.decode file
  let y ← rasterToBmp x.2 x.1.BytesPerLine x.1.Height x.1.NumColors false
  return (⟨x.1.Width, x.1.Height, x.1.NumColors, x.1.BitsPerColor, x.1.ColorSpace == 3, y.1⟩, y.2)

/-- pwg2ppm_main.cpp 52-59: one page of URF, and the rest of the file. -/
def readUrfPage (file : Bytes) : Outcome (PageOut × Bytes) := do
  let x ← UrfHdr.decode file
  let y ← rasterToBmp x.2 (x.1.Width * (x.1.BitsPerPixel / 8) % 2 ^ 32) x.1.Height (x.1.BitsPerPixel / 8) true
  return (⟨x.1.Width, x.1.Height, x.1.BitsPerPixel / 8, 8, false, y.1⟩, y.2)

/-- The loops of pwg2ppm_main.cpp 31-41 and 50-61: the files that have been written (whole pages, numbered from `n`), and how it ends. -/
def writePages (page : Bytes → Outcome (PageOut × Bytes)) (hp : ∀ s x, page s = .ok x → x.2.length < s.length) (pre : Bytes) (n : Nat) (file : Bytes) :
    List (Bytes × Bytes) × Outcome Nat :=
  if file = [] then ([], .ok 0)
  else match _h : page file with
    | .ok x =>
      let r := writePages page hp pre (n + 1) x.2
      ((pre ++ (dec n ++ (writePpm x.1).1), (writePpm x.1).2) :: r.1, r.2)
    | .throws e => ([], .throws e)
    | .ub => ([], .ub)
    | .hang => ([], .hang)
termination_by file.length
decreasing_by exact hp _ _ _h

theorem readPwgPage_lt (s : Bytes) (x : PageOut × Bytes) (h : readPwgPage s = .ok x) : x.2.length < s.length := by
  obtain ⟨a, h1, h2⟩ := Outcome.bind_eq_ok.mp h
  obtain ⟨b, h3, h4⟩ := Outcome.bind_eq_ok.mp h2
  cases h4
  have := PwgHdr.decode_consumes _ _ h1
  have := decodeRows_length h3
  simp only; omega

theorem readUrfPage_lt (s : Bytes) (x : PageOut × Bytes) (h : readUrfPage s = .ok x) : x.2.length < s.length := by
  obtain ⟨a, h1, h2⟩ := Outcome.bind_eq_ok.mp h
  obtain ⟨b, h3, h4⟩ := Outcome.bind_eq_ok.mp h2
  cases h4
  have := UrfHdr.decode_consumes _ _ h1
  have := decodeRows_length h3
  simp only; omega

/-- `main`, pwg2ppm_main.cpp 6-70, for a file that can be read: the files that have been written, and the exit code or how else it ends. -/
def pwg2ppmRun (pre file : Bytes) : List (Bytes × Bytes) × Outcome Nat :=
  match matchBytes (ascii "RaS2") file with
  | some rest => writePages readPwgPage readPwgPage_lt pre 1 rest
  | none =>
    match matchBytes (ascii "UNIRAST") file with
    | some rest =>
      match matchBytes [0] rest with
      | none => ([], .throws .badMatch)
      | some rest =>
        match rd32 rest with
        | .ok x => writePages readUrfPage readUrfPage_lt pre 1 x.2
        | .throws e => ([], .throws e)
        | .ub => ([], .ub)
        | .hang => ([], .hang)
    | none => ([], .ok 1)

/-! ## Proofs -/

/-- What is read successfully is read in the same way if more follows. -/
def Extends {α : Type} (p : Bytes → Outcome (α × Bytes)) : Prop := ∀ s x r, p s = .ok x → p (s ++ r) = .ok (x.1, x.2 ++ r)

theorem Extends.bind {α β : Type} {p : Bytes → Outcome (α × Bytes)} {g : α × Bytes → Outcome (β × Bytes)} (hp : Extends p)
    (hg : ∀ a, Extends (fun s => g (a, s))) : Extends (fun s => p s >>= g) := by
  intro s x r h
  obtain ⟨y, h1, h2⟩ := Outcome.bind_eq_ok.mp h
  show p (s ++ r) >>= g = _
  rw [hp s y r h1]
  exact hg y.1 y.2 x r h2

theorem Extends.pure {α : Type} (a : α) : Extends (fun s => Outcome.ok (a, s)) := by
  intro s x r h; cases h; rfl

theorem extends_rdBytes (n : Nat) : Extends (rdBytes n) := by
  intro s x r h
  unfold rdBytes at h ⊢
  split at h
  · cases h
    rename_i hn
    rw [if_pos (by rw [List.length_append]; omega), List.take_append_of_le_length hn, List.drop_append_of_le_length hn]
  · cases h

theorem extends_getStr (n : Nat) : Extends (getStr n) := Extends.bind (extends_rdBytes n) fun _ => Extends.pure _
theorem extends_skip (n : Nat) : Extends (skip n) := Extends.bind (extends_rdBytes n) fun _ => Extends.pure _

theorem extends_rd32 : Extends rd32 := by
  intro s x r h
  unfold rd32 at h
  split at h
  · cases h; rfl
  · cases h

theorem extends_rd8 : Extends rd8 := by
  intro s x r h
  unfold rd8 at h
  split at h
  · cases h; rfl
  · cases h

theorem PwgHdr.decode_extends : Extends PwgHdr.decode := by
  unfold PwgHdr.decode
  repeat (first
    | refine Extends.bind (extends_getStr _) fun _ => ?_; dsimp only
    | refine Extends.bind (extends_skip _) fun _ => ?_; dsimp only
    | refine Extends.bind extends_rd32 fun _ => ?_; dsimp only)
  apply Extends.pure

theorem UrfHdr.decode_extends : Extends UrfHdr.decode := by
  unfold UrfHdr.decode
  repeat (first
    | refine Extends.bind extends_rd8 fun _ => ?_; dsimp only
    | refine Extends.bind (extends_skip _) fun _ => ?_; dsimp only
    | refine Extends.bind extends_rd32 fun _ => ?_; dsimp only)
  apply Extends.pure

theorem decodeLine_extends (colors byteWidth : Nat) (urf : Bool) (line : Bytes) : Extends (decodeLine colors byteWidth urf line) := by
  intro s x r h
  fun_induction decodeLine colors byteWidth urf line s with
  | case1 line file hl => cases h; unfold decodeLine; rw [if_pos hl]
  | case2 => cases h
  | case3 line hne count rest hc =>
    obtain ⟨a, h1, h2⟩ := Outcome.bind_eq_ok.mp h
    cases h2
    rw [List.cons_append]
    unfold decodeLine
    rw [if_neg hne]
    simp only [if_pos hc, h1, Outcome.bind_ok, Outcome.pure_eq]
  | case4 line hne count rest hc hlt y hy ih =>
    rw [List.cons_append]
    unfold decodeLine
    rw [if_neg hne]
    simp only [if_neg hc, if_pos hlt]
    have he := extends_rdBytes _ _ _ r hy
    split
    · rename_i z hz
      rw [he] at hz; cases hz
      exact ih h
    all_goals (rename_i hz; rw [he] at hz; cases hz)
  | case8 line hne count rest hc hlt y hy ih =>
    rw [List.cons_append]
    unfold decodeLine
    rw [if_neg hne]
    simp only [if_neg hc, if_neg hlt]
    have he := extends_rdBytes _ _ _ r hy
    split
    · rename_i z hz
      rw [he] at hz; cases hz
      exact ih h
    all_goals (rename_i hz; rw [he] at hz; cases hz)
  | _ => cases h

theorem decodeRows_extends (colors byteWidth : Nat) (urf : Bool) (height : Nat) (out : Bytes) : Extends (decodeRows colors byteWidth urf height out) := by
  intro s x r h
  fun_induction decodeRows colors byteWidth urf height out s with
  | case1 out file => cases h; unfold decodeRows; rw [if_pos rfl]
  | case3 height out hne l rest y hy ih =>
    rw [List.cons_append]
    unfold decodeRows
    rw [if_neg hne]
    have he := decodeLine_extends _ _ _ _ _ _ r hy
    simp only
    split
    · rename_i z hz
      rw [he] at hz; cases hz
      exact ih h
    all_goals (rename_i hz; rw [he] at hz; cases hz)
  | _ => cases h

theorem readPwgPage_extends : Extends readPwgPage := by
  unfold readPwgPage
  refine Extends.bind PwgHdr.decode_extends fun a => ?_
  dsimp only
  refine Extends.bind (decodeRows_extends _ _ _ _ _) fun b => ?_
  exact fun s x r h => by cases h; rfl

theorem readUrfPage_extends : Extends readUrfPage := by
  unfold readUrfPage
  refine Extends.bind UrfHdr.decode_extends fun a => ?_
  dsimp only
  refine Extends.bind (decodeRows_extends _ _ _ _ _) fun b => ?_
  exact fun s x r h => by cases h; rfl

theorem matchBytes_extends {x s t : Bytes} (h : matchBytes x s = some t) (r : Bytes) : matchBytes x (s ++ r) = some (t ++ r) := by
  unfold matchBytes at h ⊢
  split at h
  · rename_i hp
    cases h
    rw [List.isPrefixOf_iff_prefix] at hp
    obtain ⟨u, rfl⟩ := hp
    rw [if_pos (by rw [List.isPrefixOf_iff_prefix, List.append_assoc]; exact ⟨_, rfl⟩), List.append_assoc]
    simp
  · cases h

theorem writePages_cut (page : Bytes → Outcome (PageOut × Bytes)) (hp : ∀ s x, page s = .ok x → x.2.length < s.length) (he : Extends page)
    (pre : Bytes) (n : Nat) (s r : Bytes) : (writePages page hp pre n s).1 <+: (writePages page hp pre n (s ++ r)).1 := by
  fun_induction writePages page hp pre n s with
  | case1 => exact List.nil_prefix
  | case2 n file hne x hx r' ih =>
    rw [writePages.eq_def page hp pre n (file ++ r), if_neg (by simp [hne])]
    have he := he _ _ r hx
    split
    · rename_i y hy
      rw [he] at hy; cases hy
      exact List.cons_prefix_cons.mpr ⟨rfl, ih⟩
    all_goals (rename_i hy; rw [he] at hy; cases hy)
  | _ => exact List.nil_prefix

theorem writePages_append (page : Bytes → Outcome (PageOut × Bytes)) (hp : ∀ s x, page s = .ok x → x.2.length < s.length) (he : Extends page)
    (pre : Bytes) (n : Nat) (s r : Bytes) (h : (writePages page hp pre n s).2 = .ok 0) :
    writePages page hp pre n (s ++ r) = ((writePages page hp pre n s).1 ++ (writePages page hp pre (n + (writePages page hp pre n s).1.length) r).1,
      (writePages page hp pre (n + (writePages page hp pre n s).1.length) r).2) := by
  fun_induction writePages page hp pre n s with
  | case1 => simp
  | case2 n file hne x hx r' ih =>
    rw [writePages.eq_def page hp pre n (file ++ r), if_neg (by simp [hne])]
    have he := he _ _ r hx
    split
    · rename_i y hy
      rw [he] at hy; cases hy
      simp only
      rw [ih h]
      simp [r', Nat.add_assoc, Nat.add_comm 1]
    all_goals (rename_i hy; rw [he] at hy; cases hy)
  | _ => cases h

theorem readPwgPages_eq (s : Bytes) : readPwgPages s = if s = [] then .ok [] else
    (readPwgPage s >>= fun x => readPwgPages x.2 >>= fun m => .ok (x.1 :: m)) := by
  rw [readPwgPages.eq_def]
  split
  · rfl
  · unfold readPwgPage
    cases PwgHdr.decode s with
    | ok x =>
      simp only [Outcome.bind_ok]
      cases rasterToBmp x.2 x.1.BytesPerLine x.1.Height x.1.NumColors false <;> rfl
    | _ => rfl

theorem readUrfPages_eq (s : Bytes) : readUrfPages s = if s = [] then .ok [] else
    (readUrfPage s >>= fun x => readUrfPages x.2 >>= fun m => .ok (x.1 :: m)) := by
  rw [readUrfPages.eq_def]
  split
  · rfl
  · unfold readUrfPage
    cases UrfHdr.decode s with
    | ok x =>
      simp only [Outcome.bind_ok]
      cases rasterToBmp x.2 (x.1.Width * (x.1.BitsPerPixel / 8) % 2 ^ 32) x.1.Height (x.1.BitsPerPixel / 8) true <;> rfl
    | _ => rfl

/-- The loop of writing ends as the loop of reading ends, and writes the pages read. -/
theorem writePages_read (page : Bytes → Outcome (PageOut × Bytes)) (hp : ∀ s x, page s = .ok x → x.2.length < s.length)
    (all : Bytes → Outcome (List PageOut)) (hall : ∀ s, all s = if s = [] then .ok [] else
      (page s >>= fun x => all x.2 >>= fun m => .ok (x.1 :: m))) (pre : Bytes) (n : Nat) (s : Bytes) :
    (writePages page hp pre n s).2 = (all s >>= fun _ => .ok 0) ∧
    ∀ outs, all s = .ok outs → (writePages page hp pre n s).1 = pictureFiles pre n outs := by
  fun_induction writePages page hp pre n s with
  | case1 => rw [hall, if_pos rfl]; exact ⟨rfl, fun outs h => by cases h; rfl⟩
  | case2 n file hne x hx r ih =>
    rw [hall file, if_neg hne, hx, Outcome.bind_ok]
    refine ⟨?_, fun outs h => ?_⟩
    · show r.2 = _
      rw [ih.1]
      cases all x.2 <;> rfl
    · obtain ⟨more, h3, h4⟩ := Outcome.bind_eq_ok.mp h
      cases h4
      simp only [pictureFiles]
      rw [← ih.2 more h3]
  | case3 n file hne e hx => rw [hall file, if_neg hne, hx]; exact ⟨rfl, fun _ h => by cases h⟩
  | case4 n file hne hx => rw [hall file, if_neg hne, hx]; exact ⟨rfl, fun _ h => by cases h⟩
  | case5 n file hne hx => rw [hall file, if_neg hne, hx]; exact ⟨rfl, fun _ h => by cases h⟩

theorem writePages_code {page : Bytes → Outcome (PageOut × Bytes)} {hp : ∀ s x, page s = .ok x → x.2.length < s.length} {pre : Bytes} {n : Nat}
    {s : Bytes} {k : Nat} (h : (writePages page hp pre n s).2 = .ok k) : k = 0 := by
  fun_induction writePages page hp pre n s with
  | case1 => cases h; rfl
  | case2 n file hne x hx r ih => exact ih h
  | _ => cases h

theorem matchBytes_eq {x s t : Bytes} (h : matchBytes x s = some t) : s = x ++ t := by
  unfold matchBytes at h
  split at h
  · rename_i hp
    cases h
    rw [List.isPrefixOf_iff_prefix] at hp
    obtain ⟨u, rfl⟩ := hp
    simp
  · cases h

theorem matchBytes_append (x t : Bytes) : matchBytes x (x ++ t) = some t := by
  unfold matchBytes
  rw [if_pos (by rw [List.isPrefixOf_iff_prefix]; exact ⟨_, rfl⟩)]
  simp

/-! ## Property C81 -/

/-- **C81**, link to C61: a run that ends with exit code 0 has written the pictures of the file, and the other way around; otherwise both
end in the same way. -/
theorem C81_complete (pre file : Bytes) (fs : List (Bytes × Bytes)) :
    pwg2ppmRun pre file = (fs, .ok 0) ↔ pwg2ppm pre file = .ok (some fs) := by
  unfold pwg2ppmRun pwg2ppm readRaster
  cases matchBytes (ascii "RaS2") file with
  | some rest =>
    obtain ⟨h1, h2⟩ := writePages_read readPwgPage readPwgPage_lt readPwgPages readPwgPages_eq pre 1 rest
    simp only
    cases hr : readPwgPages rest with
    | ok outs =>
      rw [hr] at h1
      simp only [Outcome.bind_ok, Outcome.pure_eq, Outcome.ok.injEq, Option.some.injEq]
      rw [← h2 outs hr]
      constructor
      · intro h; rw [h]
      · intro h; rw [← h]; exact Prod.ext rfl h1
    | _ =>
      rw [hr] at h1
      constructor
      · intro h; rw [h] at h1; cases h1
      · intro h; cases h
  | none =>
    simp only
    cases matchBytes (ascii "UNIRAST") file with
    | none => constructor <;> (intro h; cases h)
    | some rest =>
      simp only
      cases matchBytes [0] rest with
      | none => constructor <;> (intro h; cases h)
      | some rest =>
        simp only
        cases rd32 rest with
        | ok x =>
          obtain ⟨h1, h2⟩ := writePages_read readUrfPage readUrfPage_lt readUrfPages readUrfPages_eq pre 1 x.2
          simp only [Outcome.bind_ok]
          cases hr : readUrfPages x.2 with
          | ok outs =>
            rw [hr] at h1
            simp only [Outcome.bind_ok, Outcome.pure_eq, Outcome.ok.injEq, Option.some.injEq]
            rw [← h2 outs hr]
            constructor
            · intro h; rw [h]
            · intro h; rw [← h]; exact Prod.ext rfl h1
          | _ =>
            rw [hr] at h1
            constructor
            · intro h; rw [h] at h1; cases h1
            · intro h; cases h
        | _ => constructor <;> (intro h; cases h)

theorem pwg2ppmRun_pwg (pre s : Bytes) : pwg2ppmRun pre (ascii "RaS2" ++ s) = writePages readPwgPage readPwgPage_lt pre 1 s := by
  unfold pwg2ppmRun; rw [matchBytes_append]

/-- **C81**, cut files: whatever the file, and wherever it is cut, the pictures written for the beginning of the file are the first ones of those
written for the whole, with the same names and contents. No picture is written from half a page. -/
theorem C81_cut (pre s r : Bytes) : (pwg2ppmRun pre s).1 <+: (pwg2ppmRun pre (s ++ r)).1 := by
  rw [pwg2ppmRun.eq_def pre s]
  split
  · rename_i rest h
    unfold pwg2ppmRun
    rw [matchBytes_extends h r]
    exact writePages_cut _ _ readPwgPage_extends _ _ _ _
  · split
    · rename_i rest h
      split
      · exact List.nil_prefix
      · rename_i rest2 h2
        split
        · rename_i x hx
          have hn : matchBytes (ascii "RaS2") (s ++ r) = none := by
            rw [matchBytes_eq h]; rfl
          unfold pwg2ppmRun
          rw [hn, matchBytes_extends h r]
          simp only
          rw [matchBytes_extends h2 r]
          simp only
          rw [extends_rd32 _ _ r hx]
          exact writePages_cut _ _ readUrfPage_extends _ _ _ _
        all_goals exact List.nil_prefix
    · exact List.nil_prefix

/-- **C81**, defects: the pictures of the complete pages before a defect, whatever follows them, are written with the names and contents that they have
without it; and nothing else takes their place. -/
theorem C81_before (pre s r : Bytes) (fs : List (Bytes × Bytes)) (h : pwg2ppm pre s = .ok (some fs)) :
    ∃ gs, (pwg2ppmRun pre (s ++ r)).1 = fs ++ gs := by
  have h1 := C81_cut pre s r
  rw [(C81_complete pre s fs).mpr h] at h1
  obtain ⟨gs, hg⟩ := h1
  exact ⟨gs, hg.symm⟩

theorem writePages_number (page : Bytes → Outcome (PageOut × Bytes)) (hp : ∀ s x, page s = .ok x → x.2.length < s.length)
    (pre : Bytes) (n m : Nat) (s : Bytes) : (writePages page hp pre n s).2 = (writePages page hp pre m s).2 ∧
      (writePages page hp pre n s).1.map Prod.snd = (writePages page hp pre m s).1.map Prod.snd := by
  fun_induction writePages page hp pre n s generalizing m with
  | case1 => rw [writePages.eq_def page hp pre m, if_pos rfl]; exact ⟨rfl, rfl⟩
  | case2 n file hne x hx r' ih =>
    rw [writePages.eq_def page hp pre m, if_neg hne]
    split
    · rename_i y hy
      rw [hx] at hy; cases hy
      exact ⟨(ih (m + 1)).1, by simp [r', (ih (m + 1)).2]⟩
    all_goals (rename_i hy; rw [hx] at hy; cases hy)
  | case3 n file hne e hx | case4 n file hne hx | case5 n file hne hx =>
    rw [writePages.eq_def page hp pre m, if_neg hne]
    split
    · rename_i y hy
      rw [hx] at hy; cases hy
    all_goals (rename_i hy; rw [hx] at hy; cases hy)
    exact ⟨rfl, rfl⟩

/-- **C81**, files put together: the pages of another file after the pages of a complete PWG file are converted as they are on their own, and the run
ends as the conversion of the other file ends. -/
theorem C81_appended (pre a b : Bytes) (fs : List (Bytes × Bytes)) (h : pwg2ppm pre (ascii "RaS2" ++ a) = .ok (some fs)) :
    (pwg2ppmRun pre (ascii "RaS2" ++ (a ++ b))).2 = (pwg2ppmRun pre (ascii "RaS2" ++ b)).2 ∧
    (pwg2ppmRun pre (ascii "RaS2" ++ (a ++ b))).1.map Prod.snd =
      fs.map Prod.snd ++ (pwg2ppmRun pre (ascii "RaS2" ++ b)).1.map Prod.snd := by
  have h1 := (C81_complete pre _ fs).mpr h
  rw [pwg2ppmRun_pwg] at h1
  simp only [pwg2ppmRun_pwg]
  have h2 := writePages_append readPwgPage readPwgPage_lt readPwgPage_extends pre 1 a b (by rw [h1])
  rw [h1] at h2
  rw [h2]
  obtain ⟨h3, h4⟩ := writePages_number readPwgPage readPwgPage_lt pre (1 + fs.length) 1 b
  exact ⟨h3, by simp [h4]⟩

/-- **C81**, exit codes: a run that ends at all without an exception ends with 0 or 1, and with 1 exactly if the file begins neither as PWG nor as URF,
and then nothing is written. -/
theorem C81_exit (pre file : Bytes) (k : Nat) (h : (pwg2ppmRun pre file).2 = .ok k) :
    k = (if ascii "RaS2" <+: file ∨ ascii "UNIRAST" <+: file then 0 else 1) ∧ (k = 1 → (pwg2ppmRun pre file).1 = []) := by
  unfold pwg2ppmRun at h ⊢
  split at h
  · rename_i rest hr
    rw [if_pos (.inl ⟨rest, (matchBytes_eq hr).symm⟩)]
    have := writePages_code h
    exact ⟨this, fun h1 => by omega⟩
  · rename_i hr
    split at h
    · rename_i rest hr2
      rw [if_pos (.inr ⟨rest, (matchBytes_eq hr2).symm⟩)]
      split at h
      · cases h
      · split at h
        · have := writePages_code h
          exact ⟨this, fun h1 => by omega⟩
        all_goals cases h
    · rename_i hr2
      cases h
      refine ⟨?_, fun _ => rfl⟩
      rw [if_neg]
      rintro (⟨t, ht⟩ | ⟨t, ht⟩)
      · rw [← ht, matchBytes_append] at hr; cases hr
      · rw [← ht, matchBytes_append] at hr2; cases hr2

theorem writePpm_ext (o : PageOut) : ∃ e ∈ [ascii ".pbm", ascii ".pgm", ascii ".ppm"], (writePpm o).1 = e := by
  refine ⟨_, ?_, rfl⟩
  simp only [writePpm]
  split
  · simp
  · split <;> simp

theorem writePages_names (page : Bytes → Outcome (PageOut × Bytes)) (hp : ∀ s x, page s = .ok x → x.2.length < s.length)
    (pre : Bytes) (n : Nat) (s : Bytes) (i : Nat) (f : Bytes × Bytes) (hf : (writePages page hp pre n s).1[i]? = some f) :
    ∃ e ∈ [ascii ".pbm", ascii ".pgm", ascii ".ppm"], f.1 = pre ++ (dec (n + i) ++ e) := by
  fun_induction writePages page hp pre n s generalizing i with
  | case2 n file hne x hx r' ih =>
    cases i with
    | zero =>
      simp only [List.getElem?_cons_zero, Option.some.injEq] at hf
      subst hf
      obtain ⟨e, h1, h2⟩ := writePpm_ext x.1
      exact ⟨e, h1, by rw [← h2]; rfl⟩
    | succ i =>
      rw [List.getElem?_cons_succ] at hf
      obtain ⟨e, h1, h2⟩ := ih i hf
      exact ⟨e, h1, by rw [h2, show n + 1 + i = n + (i + 1) by omega]⟩
  | _ => simp at hf

theorem pwg2ppmRun_names (pre file : Bytes) (i : Nat) (f : Bytes × Bytes) (hf : (pwg2ppmRun pre file).1[i]? = some f) :
    ∃ e ∈ [ascii ".pbm", ascii ".pgm", ascii ".ppm"], f.1 = pre ++ (dec (i + 1) ++ e) := by
  unfold pwg2ppmRun at hf
  split at hf
  · rw [Nat.add_comm i]; exact writePages_names _ _ _ _ _ _ _ hf
  · split at hf
    · split at hf
      · simp at hf
      · split at hf
        · rw [Nat.add_comm i]; exact writePages_names _ _ _ _ _ _ _ hf
        all_goals simp at hf
    · simp at hf

theorem dec_ext_inj {a b : Nat} {e e' : Bytes} (he : e ∈ [ascii ".pbm", ascii ".pgm", ascii ".ppm"])
    (he' : e' ∈ [ascii ".pbm", ascii ".pgm", ascii ".ppm"]) (h : dec a ++ e = dec b ++ e') : a = b := by
  have hl : e.length = 4 ∧ e'.length = 4 := by
    simp only [List.mem_cons, List.not_mem_nil, or_false] at he he'
    constructor
    · rcases he with rfl | rfl | rfl <;> rfl
    · rcases he' with rfl | rfl | rfl <;> rfl
  have h1 := (List.append_inj' h (by omega)).1
  rw [← digitsVal_dec a, ← digitsVal_dec b, h1]

/-- **C81**, names: the `i`-th file written is named after the prefix and the number of the page, counted from 1, and no two files have the same name, so
that no page is lost by another one being written over it. -/
theorem C81_names (pre file : Bytes) :
    (∀ (i : Nat) (f : Bytes × Bytes), (pwg2ppmRun pre file).1[i]? = some f → ∃ e ∈ [ascii ".pbm", ascii ".pgm", ascii ".ppm"], f.1 = pre ++ (dec (i + 1) ++ e)) ∧
    (∀ (i j : Nat) (f g : Bytes × Bytes), (pwg2ppmRun pre file).1[i]? = some f → (pwg2ppmRun pre file).1[j]? = some g → f.1 = g.1 → i = j) := by
  refine ⟨pwg2ppmRun_names pre file, fun i j f g hi hj h => ?_⟩
  obtain ⟨e, h1, h2⟩ := pwg2ppmRun_names pre file i f hi
  obtain ⟨e', h3, h4⟩ := pwg2ppmRun_names pre file j g hj
  rw [h2, h4] at h
  have := dec_ext_inj h1 h3 (List.append_cancel_left h)
  omega

/-- **C81**, from end to end: what ppm2pwg makes of pictures may be cut anywhere and have anything in place of what is cut off. pwg2ppm gives back the
first of the pictures; all of them, if nothing is cut off, whatever follows. (Pictures as for C61.) -/
theorem C81_tool_chain (pt : Nat → Nat → Nat) (count : Nat) (hcount : count < 2 ^ 32) (pre : Bytes) (p : Params)
    (gs : List Spec.PnmPage) (hne : gs ≠ []) (hwf : ∀ g ∈ gs, g.Wf ∧ g.last = 10 ∧ g.pixels.head? ≠ some 35)
    (hk : ∀ g ∈ gs, g.kind = .pgm8 ∨ g.kind = .ppm8) (hf : ∀ g ∈ gs, Spec.Fits (g.params pt p))
    (hurf : p.format = .URF → ∀ g ∈ gs, Spec.UrfAble (g.params pt p)) (hd : p.duplexMode = .OneSided) :
    ∃ file, ppm2pwg pt count p (gs.map Spec.PnmPage.bytes).flatten = some file ∧
      (∀ k, (pwg2ppmRun pre (file.take k)).1 <+: Spec.expectedFiles pre 1 gs) ∧
      (∀ r, Spec.expectedFiles pre 1 gs <+: (pwg2ppmRun pre (file ++ r)).1) := by
  obtain ⟨file, h1, h2⟩ := C61_tool_chain_partial pt count hcount pre p gs hne hwf hk hf hurf hd
  have h3 := (C81_complete pre file _).mpr h2
  refine ⟨file, h1, fun k => ?_, fun r => ?_⟩
  · have := C81_cut pre (file.take k) (file.drop k)
    rwa [List.take_append_drop, h3] at this
  · have := C81_cut pre file r
    rwa [h3] at this

/-- **C81**, what does not hold: that a run with exit code 0 has written as many pictures as the file announces. The number of pages of a URF file is read
and printed, but not compared; a file that ends between two pages is taken for complete. -/
theorem C81_count_false : ∃ (file : Bytes) (n : Nat) (rest : Bytes), n ≠ 0 ∧ file = ascii "UNIRAST" ++ (0 :: (be32 n ++ rest)) ∧
    ∃ fs, pwg2ppmRun [] file = (fs, .ok 0) ∧ fs.length ≠ n := by
  refine ⟨ascii "UNIRAST" ++ (0 :: (be32 2 ++ [])), 2, [], by decide, rfl, [], ?_, by decide⟩
  apply (C81_complete _ _ _).mpr
  decide +kernel

/-- Two pages of one PWG file. -/
def twoPages : Bytes := ((ppm2pwg (fun _ _ => 1) 2 {} (plainPage.bytes ++ Spec.PnmPage.bytes { plainPage with kind := .ppm8, width := 1 })).getD [])

/-- The hypothesis of `C81_before` holds for a file of two pages; the one of `C81_exit` follows. -/
example : ∃ fs, pwg2ppm [] twoPages = .ok (some fs) ∧ fs.length = 2 := by
  have h : (match pwg2ppm [] twoPages with
    | .ok (some fs) => decide (fs.length = 2)
    | _ => false) = true := by decide +kernel
  split at h
  · rename_i fs hfs; exact ⟨fs, hfs, by simpa using h⟩
  · cases h

end Verif.Raster
