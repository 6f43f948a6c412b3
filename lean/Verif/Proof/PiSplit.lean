import Verif.Proof.PiSeries
/-
Numerators and denominators of the partial sums by halving (generated by tools/gen_pi.py): `T / (B · X^(L-1))` for the terms
`k·L … (k+1)·L-1`, `L = 16 · 2^h`; at the leaves, 16 terms, `B` and `T` are polynomials in `k`.
-/
namespace Hashes.Pi

def den2 (k : Nat) : Nat := Nat.add (Nat.mul (Nat.add (Nat.mul (16) k) 16) k) 3
def num25_2 (k : Nat) : Nat := Nat.add (Nat.mul (96) k) 74
def den4 (k : Nat) : Nat := Nat.add (Nat.mul (Nat.add (Nat.mul (Nat.add (Nat.mul (Nat.add (Nat.mul (4096) k) 8192) k) 5504) k) 1408) k) 105
def num25_4 (k : Nat) : Nat := Nat.add (Nat.mul (Nat.add (Nat.mul (Nat.add (Nat.mul (7692288) k) 14497024) k) 8646016) k) 1619260
def den8 (k : Nat) : Nat := Nat.add (Nat.mul (Nat.add (Nat.mul (Nat.add (Nat.mul (Nat.add (Nat.mul (Nat.add (Nat.mul (Nat.add (Nat.mul (Nat.add (Nat.mul (Nat.add (Nat.mul (4294967296) k) 17179869184) k) 28655484928) k) 25836912640) k) 13635026944) k) 4251713536) k) 748588032) k) 65571840) k) 2027025
def num25_8 (k : Nat) : Nat := Nat.add (Nat.mul (Nat.add (Nat.mul (Nat.add (Nat.mul (Nat.add (Nat.mul (Nat.add (Nat.mul (Nat.add (Nat.mul (Nat.add (Nat.mul (1575384615374290944) k) 6210650887543586816) k) 10151552116485783552) k) 8887825356231802880) k) 4483268846125449216) k) 1296652748658980864) k) 197922729642674688) k) 12210868368669240
def den16 (k : Nat) : Nat := Nat.add (Nat.mul (Nat.add (Nat.mul (Nat.add (Nat.mul (Nat.add (Nat.mul (Nat.add (Nat.mul (Nat.add (Nat.mul (Nat.add (Nat.mul (Nat.add (Nat.mul (Nat.add (Nat.mul (Nat.add (Nat.mul (Nat.add (Nat.mul (Nat.add (Nat.mul (Nat.add (Nat.mul (Nat.add (Nat.mul (Nat.add (Nat.mul (Nat.add (Nat.mul (1208925819614629174706176) k) 9671406556917033397649408) k) 35464972286351035554856960) k) 79005191258409164425134080) k) 119458453678510423662395392) k) 129732234051468424040677376) k) 104428891023174813718937600) k) 63380086603552120467619840) k) 29213579061257224205631488) k) 10218691947855212890292224) k) 2689922799758411426693120) k) 523849037676286553620480) k) 73351168936524795346944) k) 7053162962195413204992) k) 431323362218433208320) k) 14542124843783577600) k) 191898783962510625
def num25_16 (k : Nat) : Nat := Nat.add (Nat.mul (Nat.add (Nat.mul (Nat.add (Nat.mul (Nat.add (Nat.mul (Nat.add (Nat.mul (Nat.add (Nat.mul (Nat.add (Nat.mul (Nat.add (Nat.mul (Nat.add (Nat.mul (Nat.add (Nat.mul (Nat.add (Nat.mul (Nat.add (Nat.mul (Nat.add (Nat.mul (Nat.add (Nat.mul (Nat.add (Nat.mul (33831127008492307692306239271851424724549632) k) 269673118173462721893480994923964258897100800) k) 984683907911521529358183544318374712988139520) k) 2182474133090427478029418936954092269862912000) k) 3279884509853885684890289630620930168894521344) k) 3535570229184647469083538321725745557437153280) k) 2819950224089335650600266440606208060093890560) k) 1691840431019255827028708419644181831693107200) k) 768356616142925926402381657603946927322300416) k) 263587896530737470576400521639779831843389440) k) 67580084841399758261012225758224876851691520) k) 12680220643257208913127459831926718516428800) k) 1679787815199712855817185489297717076164608) k) 147720173749212136773709801838074717716480) k) 7673073916020280701751261633648855910400) k) 176392346130642592486288400219284230000
def num57121_2 (k : Nat) : Nat := Nat.add (Nat.mul (228480) k) 171362
def num57121_4 (k : Nat) : Nat := Nat.add (Nat.mul (Nat.add (Nat.mul (Nat.add (Nat.mul (95422274371092480) k) 178917182070681856) k) 105859712071411456) k) 19569249503065996
def num57121_8 (k : Nat) : Nat := Nat.add (Nat.mul (Nat.add (Nat.mul (Nat.add (Nat.mul (Nat.add (Nat.mul (Nat.add (Nat.mul (Nat.add (Nat.mul (Nat.add (Nat.mul (532602117637219898629270101150005911879680) k) 2097122003689090458315503179343458381856768) k) 3422389071825656971399491738863216093036544) k) 2990042239815615737269855060930932284850176) k) 1503954500426624490739613566234445537083392) k) 433243861080557519330988190839691589507072) k) 65752397167042871241982927743526346649600) k) 4021862177501512979889115781162321416920
def num57121_16 (k : Nat) : Nat := Nat.add (Nat.mul (Nat.add (Nat.mul (Nat.add (Nat.mul (Nat.add (Nat.mul (Nat.add (Nat.mul (Nat.add (Nat.mul (Nat.add (Nat.mul (Nat.add (Nat.mul (Nat.add (Nat.mul (Nat.add (Nat.mul (Nat.add (Nat.mul (Nat.add (Nat.mul (Nat.add (Nat.mul (Nat.add (Nat.mul (Nat.add (Nat.mul (8495307438151921701754788765006060440578364835693129378881234726818543769703654933010034196480) k) 67696990442908360900239208233813130807872736737579063322403419287406949285305384467344165699584) k) 247102350587252295250914204119914826966610946917153399340124756287056954334902835227606749544448) k) 547459932337256602246635629909311585458357904265088739902732824932123611699289422658580873478144) k) 822345363722341298924570218212746737652380857342995933653056712757147175477154086297729750794240) k) 885950908174385461033444754105067135091675971745632328474709447618838144188909641335755031707648) k) 706152809208253180315711634953154645274394165555079008464987598386035710518814437306288134160384) k) 423315046132173808327530943456878393560047226551846028961423651642947141847952039705819649933312) k) 192060132480675396298324977345416827200502736938041785776465400253543543178093951090466792407040) k) 65806624109029883766050323261464995861005027074147331485937956296982512489677748599013467226112) k) 16846104914726304946391610710207029770874726507700567381896136390753523319809468566749082288128) k) 3154741822305988357806426827695409102318427117832728265231595456797757243724194286206602706944) k) 416866876416078866370827247196303648507963105971594020664751238620306937856144371892659159040) k) 36536887414705730076671935967051572305198122589336081540339234199493015803726090233861881856) k) 1889222234032180407569343757426597394799060937874544114355522335617929347583299681207459840) k) 43152575074139991052853125262295044802810830648175178532259232528951341261143819409178800

theorem den4_eq (k : Nat) : den4 k = den2 (2 * k) * den2 (2 * k + 1) := by
  simp only [den4, den2, Nat.add_eq, Nat.mul_eq]; ring

theorem num25_4_eq (k : Nat) :
    num25_4 k = num25_2 (2 * k) * den2 (2 * k + 1) * 25 ^ 2 + den2 (2 * k) * num25_2 (2 * k + 1) := by
  simp only [num25_4, num25_2, den2, Nat.add_eq, Nat.mul_eq]; ring

theorem num57121_4_eq (k : Nat) :
    num57121_4 k = num57121_2 (2 * k) * den2 (2 * k + 1) * 57121 ^ 2 + den2 (2 * k) * num57121_2 (2 * k + 1) := by
  simp only [num57121_4, num57121_2, den2, Nat.add_eq, Nat.mul_eq]; ring

theorem den8_eq (k : Nat) : den8 k = den4 (2 * k) * den4 (2 * k + 1) := by
  simp only [den8, den4, Nat.add_eq, Nat.mul_eq]; ring

theorem num25_8_eq (k : Nat) :
    num25_8 k = num25_4 (2 * k) * den4 (2 * k + 1) * 25 ^ 4 + den4 (2 * k) * num25_4 (2 * k + 1) := by
  simp only [num25_8, num25_4, den4, Nat.add_eq, Nat.mul_eq]; ring

theorem num57121_8_eq (k : Nat) :
    num57121_8 k = num57121_4 (2 * k) * den4 (2 * k + 1) * 57121 ^ 4 + den4 (2 * k) * num57121_4 (2 * k + 1) := by
  simp only [num57121_8, num57121_4, den4, Nat.add_eq, Nat.mul_eq]; ring

theorem den16_eq (k : Nat) : den16 k = den8 (2 * k) * den8 (2 * k + 1) := by
  simp only [den16, den8, Nat.add_eq, Nat.mul_eq]; ring

theorem num25_16_eq (k : Nat) :
    num25_16 k = num25_8 (2 * k) * den8 (2 * k + 1) * 25 ^ 8 + den8 (2 * k) * num25_8 (2 * k + 1) := by
  simp only [num25_16, num25_8, den8, Nat.add_eq, Nat.mul_eq]; ring

theorem num57121_16_eq (k : Nat) :
    num57121_16 k = num57121_8 (2 * k) * den8 (2 * k + 1) * 57121 ^ 8 + den8 (2 * k) * num57121_8 (2 * k + 1) := by
  simp only [num57121_16, num57121_8, den8, Nat.add_eq, Nat.mul_eq]; ring

theorem good25_2 (k : Nat) : Good 25 (2 * k) 2 (den2 k) (num25_2 k) := by
  have h := good_two (X := 25) (by decide) (2 * k) (num25_2 k) (by simp only [num25_2, Nat.add_eq, Nat.mul_eq]; ring)
  have e : den2 k = (2 * (2 * k) + 1) * (2 * (2 * k) + 3) := by simp only [den2, Nat.add_eq, Nat.mul_eq]; ring
  rwa [e]

theorem good25_4 (k : Nat) : Good 25 (4 * k) 4 (den4 k) (num25_4 k) := by
  rw [den4_eq, num25_4_eq]
  have h1 := good25_2 (2 * k)
  have h2 := good25_2 (2 * k + 1)
  rw [show 2 * (2 * k) = 4 * k by ring] at h1
  rw [show 2 * (2 * k + 1) = 4 * k + 2 by ring] at h2
  exact h1.add (by decide) (by decide) h2

theorem good25_8 (k : Nat) : Good 25 (8 * k) 8 (den8 k) (num25_8 k) := by
  rw [den8_eq, num25_8_eq]
  have h1 := good25_4 (2 * k)
  have h2 := good25_4 (2 * k + 1)
  rw [show 4 * (2 * k) = 8 * k by ring] at h1
  rw [show 4 * (2 * k + 1) = 8 * k + 4 by ring] at h2
  exact h1.add (by decide) (by decide) h2

theorem good25_16 (k : Nat) : Good 25 (16 * k) 16 (den16 k) (num25_16 k) := by
  rw [den16_eq, num25_16_eq]
  have h1 := good25_8 (2 * k)
  have h2 := good25_8 (2 * k + 1)
  rw [show 8 * (2 * k) = 16 * k by ring] at h1
  rw [show 8 * (2 * k + 1) = 16 * k + 8 by ring] at h2
  exact h1.add (by decide) (by decide) h2

theorem good57121_2 (k : Nat) : Good 57121 (2 * k) 2 (den2 k) (num57121_2 k) := by
  have h := good_two (X := 57121) (by decide) (2 * k) (num57121_2 k) (by simp only [num57121_2, Nat.add_eq, Nat.mul_eq]; ring)
  have e : den2 k = (2 * (2 * k) + 1) * (2 * (2 * k) + 3) := by simp only [den2, Nat.add_eq, Nat.mul_eq]; ring
  rwa [e]

theorem good57121_4 (k : Nat) : Good 57121 (4 * k) 4 (den4 k) (num57121_4 k) := by
  rw [den4_eq, num57121_4_eq]
  have h1 := good57121_2 (2 * k)
  have h2 := good57121_2 (2 * k + 1)
  rw [show 2 * (2 * k) = 4 * k by ring] at h1
  rw [show 2 * (2 * k + 1) = 4 * k + 2 by ring] at h2
  exact h1.add (by decide) (by decide) h2

theorem good57121_8 (k : Nat) : Good 57121 (8 * k) 8 (den8 k) (num57121_8 k) := by
  rw [den8_eq, num57121_8_eq]
  have h1 := good57121_4 (2 * k)
  have h2 := good57121_4 (2 * k + 1)
  rw [show 4 * (2 * k) = 8 * k by ring] at h1
  rw [show 4 * (2 * k + 1) = 8 * k + 4 by ring] at h2
  exact h1.add (by decide) (by decide) h2

theorem good57121_16 (k : Nat) : Good 57121 (16 * k) 16 (den16 k) (num57121_16 k) := by
  rw [den16_eq, num57121_16_eq]
  have h1 := good57121_8 (2 * k)
  have h2 := good57121_8 (2 * k + 1)
  rw [show 8 * (2 * k) = 16 * k by ring] at h1
  rw [show 8 * (2 * k + 1) = 16 * k + 8 by ring] at h2
  exact h1.add (by decide) (by decide) h2

/-- `Y ^ 2 ^ h` by squaring. -/
def sq (Y h : Nat) : Nat := Nat.rec Y (fun _ r => Nat.mul r r) h

theorem sq_succ (Y h : Nat) : sq Y (h + 1) = sq Y h * sq Y h := rfl

theorem sq_eq (Y h : Nat) : sq Y h = Y ^ 2 ^ h := by
  induction h with
  | zero => simp [sq]
  | succ h ih => rw [sq_succ, ih, ← Nat.pow_add]; congr 1; omega


/-- `(B, T)` of `16 · 2^h` terms from number `16 · 2^h · k` on. -/
def split25 (h : Nat) : Nat → Nat × Nat :=
  Nat.rec (fun k => (den16 k, num25_16 k)) (fun h r k =>
    let l := r (Nat.mul 2 k)
    let q := r (Nat.add (Nat.mul 2 k) 1)
    (Nat.mul l.1 q.1, Nat.add (Nat.mul (Nat.mul l.2 q.1) (sq 23283064365386962890625 h)) (Nat.mul l.1 q.2))) h

theorem split25_zero (k : Nat) : split25 0 k = (den16 k, num25_16 k) := rfl
theorem split25_succ (h k : Nat) : split25 (h + 1) k =
    ((split25 h (2 * k)).1 * (split25 h (2 * k + 1)).1,
     (split25 h (2 * k)).2 * (split25 h (2 * k + 1)).1 * sq 23283064365386962890625 h + (split25 h (2 * k)).1 * (split25 h (2 * k + 1)).2) := rfl

theorem split25_good (h k : Nat) : Good 25 (16 * 2 ^ h * k) (16 * 2 ^ h) (split25 h k).1 (split25 h k).2 := by
  induction h generalizing k with
  | zero => rw [split25_zero]; exact good25_16 k
  | succ h ih =>
    rw [split25_succ]
    have h1 := ih (2 * k)
    have h2 := ih (2 * k + 1)
    rw [show 16 * 2 ^ h * (2 * k) = 16 * 2 ^ (h + 1) * k by rw [pow_succ]; ring] at h1
    rw [show 16 * 2 ^ h * (2 * k + 1) = 16 * 2 ^ (h + 1) * k + 16 * 2 ^ h by rw [pow_succ]; ring] at h2
    have h3 := h1.add (by decide) (Even.mul_right (by decide) _) h2
    rw [sq_eq, show (23283064365386962890625 : Nat) = 25 ^ 16 by norm_num, ← pow_mul]
    rw [show 16 * 2 ^ (h + 1) = 16 * 2 ^ h + 16 * 2 ^ h by rw [pow_succ]; ring] at *
    exact h3

/-- `(B, T)` of `16 · 2^h` terms from number `16 · 2^h · k` on. -/
def split57121 (h : Nat) : Nat → Nat × Nat :=
  Nat.rec (fun k => (den16 k, num57121_16 k)) (fun h r k =>
    let l := r (Nat.mul 2 k)
    let q := r (Nat.add (Nat.mul 2 k) 1)
    (Nat.mul l.1 q.1, Nat.add (Nat.mul (Nat.mul l.2 q.1) (sq 12844962193278098707177859703090754727719457630012112436081710067419000721921 h)) (Nat.mul l.1 q.2))) h

theorem split57121_zero (k : Nat) : split57121 0 k = (den16 k, num57121_16 k) := rfl
theorem split57121_succ (h k : Nat) : split57121 (h + 1) k =
    ((split57121 h (2 * k)).1 * (split57121 h (2 * k + 1)).1,
     (split57121 h (2 * k)).2 * (split57121 h (2 * k + 1)).1 * sq 12844962193278098707177859703090754727719457630012112436081710067419000721921 h + (split57121 h (2 * k)).1 * (split57121 h (2 * k + 1)).2) := rfl

theorem split57121_good (h k : Nat) : Good 57121 (16 * 2 ^ h * k) (16 * 2 ^ h) (split57121 h k).1 (split57121 h k).2 := by
  induction h generalizing k with
  | zero => rw [split57121_zero]; exact good57121_16 k
  | succ h ih =>
    rw [split57121_succ]
    have h1 := ih (2 * k)
    have h2 := ih (2 * k + 1)
    rw [show 16 * 2 ^ h * (2 * k) = 16 * 2 ^ (h + 1) * k by rw [pow_succ]; ring] at h1
    rw [show 16 * 2 ^ h * (2 * k + 1) = 16 * 2 ^ (h + 1) * k + 16 * 2 ^ h by rw [pow_succ]; ring] at h2
    have h3 := h1.add (by decide) (Even.mul_right (by decide) _) h2
    rw [sq_eq, show (12844962193278098707177859703090754727719457630012112436081710067419000721921 : Nat) = 57121 ^ 16 by norm_num, ← pow_mul]
    rw [show 16 * 2 ^ (h + 1) = 16 * 2 ^ h + 16 * 2 ^ h by rw [pow_succ]; ring] at *
    exact h3

end Hashes.Pi
