import Verif.Model.Matrix

/-! # Component lemmas for the colour operators -/

namespace CS
variable {T : Type} [Add T] [Sub T] [Mul T] [Div T] [Neg T] [Flt T]

@[simp] theorem RGBf.add_r (a b : RGBf T) : (a + b).r = a.r + b.r := rfl
@[simp] theorem RGBf.sadd_r (a : RGBf T) (s : T) : (a + s).r = a.r + s := rfl
@[simp] theorem RGBf.sub_r (a b : RGBf T) : (a - b).r = a.r - b.r := rfl
@[simp] theorem RGBf.ssub_r (a : RGBf T) (s : T) : (a - s).r = a.r - s := rfl
@[simp] theorem RGBf.mul_r (a b : RGBf T) : (a * b).r = a.r * b.r := rfl
@[simp] theorem RGBf.smul_r (a : RGBf T) (s : T) : (a * s).r = a.r * s := rfl
@[simp] theorem RGBf.div_r (a b : RGBf T) : (a / b).r = a.r / b.r := rfl
@[simp] theorem RGBf.sdiv_r (a : RGBf T) (s : T) : (a / s).r = a.r / s := rfl
@[simp] theorem RGBf.neg_r (a : RGBf T) : (-a).r = -a.r := rfl
@[simp] theorem RGBf.add_g (a b : RGBf T) : (a + b).g = a.g + b.g := rfl
@[simp] theorem RGBf.sadd_g (a : RGBf T) (s : T) : (a + s).g = a.g + s := rfl
@[simp] theorem RGBf.sub_g (a b : RGBf T) : (a - b).g = a.g - b.g := rfl
@[simp] theorem RGBf.ssub_g (a : RGBf T) (s : T) : (a - s).g = a.g - s := rfl
@[simp] theorem RGBf.mul_g (a b : RGBf T) : (a * b).g = a.g * b.g := rfl
@[simp] theorem RGBf.smul_g (a : RGBf T) (s : T) : (a * s).g = a.g * s := rfl
@[simp] theorem RGBf.div_g (a b : RGBf T) : (a / b).g = a.g / b.g := rfl
@[simp] theorem RGBf.sdiv_g (a : RGBf T) (s : T) : (a / s).g = a.g / s := rfl
@[simp] theorem RGBf.neg_g (a : RGBf T) : (-a).g = -a.g := rfl
@[simp] theorem RGBf.add_b (a b : RGBf T) : (a + b).b = a.b + b.b := rfl
@[simp] theorem RGBf.sadd_b (a : RGBf T) (s : T) : (a + s).b = a.b + s := rfl
@[simp] theorem RGBf.sub_b (a b : RGBf T) : (a - b).b = a.b - b.b := rfl
@[simp] theorem RGBf.ssub_b (a : RGBf T) (s : T) : (a - s).b = a.b - s := rfl
@[simp] theorem RGBf.mul_b (a b : RGBf T) : (a * b).b = a.b * b.b := rfl
@[simp] theorem RGBf.smul_b (a : RGBf T) (s : T) : (a * s).b = a.b * s := rfl
@[simp] theorem RGBf.div_b (a b : RGBf T) : (a / b).b = a.b / b.b := rfl
@[simp] theorem RGBf.sdiv_b (a : RGBf T) (s : T) : (a / s).b = a.b / s := rfl
@[simp] theorem RGBf.neg_b (a : RGBf T) : (-a).b = -a.b := rfl
@[simp] theorem RGBf.mmul_r (m : Matrix33 T) (v : RGBf T) : (m * v).r = m.x0 * v.r + m.x1 * v.g + m.x2 * v.b := rfl
@[simp] theorem RGBf.mmul_g (m : Matrix33 T) (v : RGBf T) : (m * v).g = m.x3 * v.r + m.x4 * v.g + m.x5 * v.b := rfl
@[simp] theorem RGBf.mmul_b (m : Matrix33 T) (v : RGBf T) : (m * v).b = m.x6 * v.r + m.x7 * v.g + m.x8 * v.b := rfl
@[simp] theorem XYZ.add_x (a b : XYZ T) : (a + b).x = a.x + b.x := rfl
@[simp] theorem XYZ.sadd_x (a : XYZ T) (s : T) : (a + s).x = a.x + s := rfl
@[simp] theorem XYZ.sub_x (a b : XYZ T) : (a - b).x = a.x - b.x := rfl
@[simp] theorem XYZ.ssub_x (a : XYZ T) (s : T) : (a - s).x = a.x - s := rfl
@[simp] theorem XYZ.mul_x (a b : XYZ T) : (a * b).x = a.x * b.x := rfl
@[simp] theorem XYZ.smul_x (a : XYZ T) (s : T) : (a * s).x = a.x * s := rfl
@[simp] theorem XYZ.div_x (a b : XYZ T) : (a / b).x = a.x / b.x := rfl
@[simp] theorem XYZ.sdiv_x (a : XYZ T) (s : T) : (a / s).x = a.x / s := rfl
@[simp] theorem XYZ.neg_x (a : XYZ T) : (-a).x = -a.x := rfl
@[simp] theorem XYZ.add_y (a b : XYZ T) : (a + b).y = a.y + b.y := rfl
@[simp] theorem XYZ.sadd_y (a : XYZ T) (s : T) : (a + s).y = a.y + s := rfl
@[simp] theorem XYZ.sub_y (a b : XYZ T) : (a - b).y = a.y - b.y := rfl
@[simp] theorem XYZ.ssub_y (a : XYZ T) (s : T) : (a - s).y = a.y - s := rfl
@[simp] theorem XYZ.mul_y (a b : XYZ T) : (a * b).y = a.y * b.y := rfl
@[simp] theorem XYZ.smul_y (a : XYZ T) (s : T) : (a * s).y = a.y * s := rfl
@[simp] theorem XYZ.div_y (a b : XYZ T) : (a / b).y = a.y / b.y := rfl
@[simp] theorem XYZ.sdiv_y (a : XYZ T) (s : T) : (a / s).y = a.y / s := rfl
@[simp] theorem XYZ.neg_y (a : XYZ T) : (-a).y = -a.y := rfl
@[simp] theorem XYZ.add_z (a b : XYZ T) : (a + b).z = a.z + b.z := rfl
@[simp] theorem XYZ.sadd_z (a : XYZ T) (s : T) : (a + s).z = a.z + s := rfl
@[simp] theorem XYZ.sub_z (a b : XYZ T) : (a - b).z = a.z - b.z := rfl
@[simp] theorem XYZ.ssub_z (a : XYZ T) (s : T) : (a - s).z = a.z - s := rfl
@[simp] theorem XYZ.mul_z (a b : XYZ T) : (a * b).z = a.z * b.z := rfl
@[simp] theorem XYZ.smul_z (a : XYZ T) (s : T) : (a * s).z = a.z * s := rfl
@[simp] theorem XYZ.div_z (a b : XYZ T) : (a / b).z = a.z / b.z := rfl
@[simp] theorem XYZ.sdiv_z (a : XYZ T) (s : T) : (a / s).z = a.z / s := rfl
@[simp] theorem XYZ.neg_z (a : XYZ T) : (-a).z = -a.z := rfl
@[simp] theorem XYZ.mmul_x (m : Matrix33 T) (v : XYZ T) : (m * v).x = m.x0 * v.x + m.x1 * v.y + m.x2 * v.z := rfl
@[simp] theorem XYZ.mmul_y (m : Matrix33 T) (v : XYZ T) : (m * v).y = m.x3 * v.x + m.x4 * v.y + m.x5 * v.z := rfl
@[simp] theorem XYZ.mmul_z (m : Matrix33 T) (v : XYZ T) : (m * v).z = m.x6 * v.x + m.x7 * v.y + m.x8 * v.z := rfl

end CS
