import Verif.RangeCheckLemmas
import Verif.RangeCertSimplex4P0
import Verif.RangeCertSimplex4P1
import Verif.RangeCertSimplex4P2
import Verif.RangeCertSimplex4P3
import Verif.RangeCertSimplex4P4
import Verif.RangeCertSimplex4P5
/-! Generated by tools/rangecert/gen.py: a certificate for the checker `Verif.RangeCheck`. -/
namespace FastNoise.RangeCheck.Simplex4

def tree : Tree := (.cut 0 (.cut 1 (.cut 2 (.cut 3 (.cut 0 t0 (.cut 1 t1 (.cut 2 t2 (.cut 3 (.cut 0 (.cut 1 (.cut 2 (.cut 3 t3 (.cut 0 t4 (.cut 1 t5 (.cut 2 t6 (.cut 3 t7 (.cut 0 (.cut 1 (.cut 2 (.cut 3 (.cut 0 (.cut 1 (.cut 2 (.cut 3 (.cut 0 (.cut 1 (.cut 2 (.cut 3 (.cut 0 t8 (.cut 1 t9 (.cut 2 t10 (.cut 3 t11 (.cut 0 t12 (.cut 1 (.cut 2 (.cut 3 (.cut 0 t13 t14) t15) t16) t17)))))) t18) t19) t20) (.cut 1 t21 t22)) t23) t24) t25) t26) t27) t28) t29) t30)))))) t31) t32) t33) (.cut 0 t34 t35))))) t36) t37) t38) (.cut 1 (.cut 2 (.cut 3 (.cut 0 t39 (.cut 1 (.cut 2 (.cut 3 (.cut 0 t40 t41) t42) t43) t44)) t45) t46) (.cut 2 (.cut 3 (.cut 0 t47 (.cut 1 t48 t49)) t50) t51)))
theorem checked : check par tree [32768, 32768, 32768, 32768] [32768, 32768, 32768, 32768] st = true := (check_cut (c1 := [16384, 32768, 32768, 32768]) (c2 := [49152, 32768, 32768, 32768]) (h := [16384, 32768, 32768, 32768]) (fun _ => rfl) (check_cut (c1 := [16384, 16384, 32768, 32768]) (c2 := [16384, 49152, 32768, 32768]) (h := [16384, 16384, 32768, 32768]) (fun _ => rfl) (check_cut (c1 := [16384, 16384, 16384, 32768]) (c2 := [16384, 16384, 49152, 32768]) (h := [16384, 16384, 16384, 32768]) (fun _ => rfl) (check_cut (c1 := [16384, 16384, 16384, 16384]) (c2 := [16384, 16384, 16384, 49152]) (h := [16384, 16384, 16384, 16384]) (fun _ => rfl) (check_cut (c1 := [8192, 16384, 16384, 16384]) (c2 := [24576, 16384, 16384, 16384]) (h := [8192, 16384, 16384, 16384]) (fun _ => rfl) h0 (check_cut (c1 := [24576, 8192, 16384, 16384]) (c2 := [24576, 24576, 16384, 16384]) (h := [8192, 8192, 16384, 16384]) (fun _ => rfl) h1 (check_cut (c1 := [24576, 24576, 8192, 16384]) (c2 := [24576, 24576, 24576, 16384]) (h := [8192, 8192, 8192, 16384]) (fun _ => rfl) h2 (check_cut (c1 := [24576, 24576, 24576, 8192]) (c2 := [24576, 24576, 24576, 24576]) (h := [8192, 8192, 8192, 8192]) (fun _ => rfl) (check_cut (c1 := [20480, 24576, 24576, 8192]) (c2 := [28672, 24576, 24576, 8192]) (h := [4096, 8192, 8192, 8192]) (fun _ => rfl) (check_cut (c1 := [20480, 20480, 24576, 8192]) (c2 := [20480, 28672, 24576, 8192]) (h := [4096, 4096, 8192, 8192]) (fun _ => rfl) (check_cut (c1 := [20480, 20480, 20480, 8192]) (c2 := [20480, 20480, 28672, 8192]) (h := [4096, 4096, 4096, 8192]) (fun _ => rfl) (check_cut (c1 := [20480, 20480, 20480, 4096]) (c2 := [20480, 20480, 20480, 12288]) (h := [4096, 4096, 4096, 4096]) (fun _ => rfl) h3 (check_cut (c1 := [18432, 20480, 20480, 12288]) (c2 := [22528, 20480, 20480, 12288]) (h := [2048, 4096, 4096, 4096]) (fun _ => rfl) h4 (check_cut (c1 := [22528, 18432, 20480, 12288]) (c2 := [22528, 22528, 20480, 12288]) (h := [2048, 2048, 4096, 4096]) (fun _ => rfl) h5 (check_cut (c1 := [22528, 22528, 18432, 12288]) (c2 := [22528, 22528, 22528, 12288]) (h := [2048, 2048, 2048, 4096]) (fun _ => rfl) h6 (check_cut (c1 := [22528, 22528, 22528, 10240]) (c2 := [22528, 22528, 22528, 14336]) (h := [2048, 2048, 2048, 2048]) (fun _ => rfl) h7 (check_cut (c1 := [21504, 22528, 22528, 14336]) (c2 := [23552, 22528, 22528, 14336]) (h := [1024, 2048, 2048, 2048]) (fun _ => rfl) (check_cut (c1 := [21504, 21504, 22528, 14336]) (c2 := [21504, 23552, 22528, 14336]) (h := [1024, 1024, 2048, 2048]) (fun _ => rfl) (check_cut (c1 := [21504, 21504, 21504, 14336]) (c2 := [21504, 21504, 23552, 14336]) (h := [1024, 1024, 1024, 2048]) (fun _ => rfl) (check_cut (c1 := [21504, 21504, 21504, 13312]) (c2 := [21504, 21504, 21504, 15360]) (h := [1024, 1024, 1024, 1024]) (fun _ => rfl) (check_cut (c1 := [20992, 21504, 21504, 13312]) (c2 := [22016, 21504, 21504, 13312]) (h := [512, 1024, 1024, 1024]) (fun _ => rfl) (check_cut (c1 := [20992, 20992, 21504, 13312]) (c2 := [20992, 22016, 21504, 13312]) (h := [512, 512, 1024, 1024]) (fun _ => rfl) (check_cut (c1 := [20992, 20992, 20992, 13312]) (c2 := [20992, 20992, 22016, 13312]) (h := [512, 512, 512, 1024]) (fun _ => rfl) (check_cut (c1 := [20992, 20992, 20992, 12800]) (c2 := [20992, 20992, 20992, 13824]) (h := [512, 512, 512, 512]) (fun _ => rfl) (check_cut (c1 := [20736, 20992, 20992, 12800]) (c2 := [21248, 20992, 20992, 12800]) (h := [256, 512, 512, 512]) (fun _ => rfl) (check_cut (c1 := [20736, 20736, 20992, 12800]) (c2 := [20736, 21248, 20992, 12800]) (h := [256, 256, 512, 512]) (fun _ => rfl) (check_cut (c1 := [20736, 20736, 20736, 12800]) (c2 := [20736, 20736, 21248, 12800]) (h := [256, 256, 256, 512]) (fun _ => rfl) (check_cut (c1 := [20736, 20736, 20736, 12544]) (c2 := [20736, 20736, 20736, 13056]) (h := [256, 256, 256, 256]) (fun _ => rfl) (check_cut (c1 := [20608, 20736, 20736, 12544]) (c2 := [20864, 20736, 20736, 12544]) (h := [128, 256, 256, 256]) (fun _ => rfl) h8 (check_cut (c1 := [20864, 20608, 20736, 12544]) (c2 := [20864, 20864, 20736, 12544]) (h := [128, 128, 256, 256]) (fun _ => rfl) h9 (check_cut (c1 := [20864, 20864, 20608, 12544]) (c2 := [20864, 20864, 20864, 12544]) (h := [128, 128, 128, 256]) (fun _ => rfl) h10 (check_cut (c1 := [20864, 20864, 20864, 12416]) (c2 := [20864, 20864, 20864, 12672]) (h := [128, 128, 128, 128]) (fun _ => rfl) h11 (check_cut (c1 := [20800, 20864, 20864, 12672]) (c2 := [20928, 20864, 20864, 12672]) (h := [64, 128, 128, 128]) (fun _ => rfl) h12 (check_cut (c1 := [20928, 20800, 20864, 12672]) (c2 := [20928, 20928, 20864, 12672]) (h := [64, 64, 128, 128]) (fun _ => rfl) (check_cut (c1 := [20928, 20800, 20800, 12672]) (c2 := [20928, 20800, 20928, 12672]) (h := [64, 64, 64, 128]) (fun _ => rfl) (check_cut (c1 := [20928, 20800, 20800, 12608]) (c2 := [20928, 20800, 20800, 12736]) (h := [64, 64, 64, 64]) (fun _ => rfl) (check_cut (c1 := [20896, 20800, 20800, 12608]) (c2 := [20960, 20800, 20800, 12608]) (h := [32, 64, 64, 64]) (fun _ => rfl) h13 h14) h15) h16) h17)))))) h18) h19) h20) (check_cut (c1 := [21248, 20736, 20992, 12800]) (c2 := [21248, 21248, 20992, 12800]) (h := [256, 256, 512, 512]) (fun _ => rfl) h21 h22)) h23) h24) h25) h26) h27) h28) h29) h30)))))) h31) h32) h33) (check_cut (c1 := [20480, 24576, 24576, 24576]) (c2 := [28672, 24576, 24576, 24576]) (h := [4096, 8192, 8192, 8192]) (fun _ => rfl) h34 h35))))) h36) h37) h38) (check_cut (c1 := [49152, 16384, 32768, 32768]) (c2 := [49152, 49152, 32768, 32768]) (h := [16384, 16384, 32768, 32768]) (fun _ => rfl) (check_cut (c1 := [49152, 16384, 16384, 32768]) (c2 := [49152, 16384, 49152, 32768]) (h := [16384, 16384, 16384, 32768]) (fun _ => rfl) (check_cut (c1 := [49152, 16384, 16384, 16384]) (c2 := [49152, 16384, 16384, 49152]) (h := [16384, 16384, 16384, 16384]) (fun _ => rfl) (check_cut (c1 := [40960, 16384, 16384, 16384]) (c2 := [57344, 16384, 16384, 16384]) (h := [8192, 16384, 16384, 16384]) (fun _ => rfl) h39 (check_cut (c1 := [57344, 8192, 16384, 16384]) (c2 := [57344, 24576, 16384, 16384]) (h := [8192, 8192, 16384, 16384]) (fun _ => rfl) (check_cut (c1 := [57344, 8192, 8192, 16384]) (c2 := [57344, 8192, 24576, 16384]) (h := [8192, 8192, 8192, 16384]) (fun _ => rfl) (check_cut (c1 := [57344, 8192, 8192, 8192]) (c2 := [57344, 8192, 8192, 24576]) (h := [8192, 8192, 8192, 8192]) (fun _ => rfl) (check_cut (c1 := [53248, 8192, 8192, 8192]) (c2 := [61440, 8192, 8192, 8192]) (h := [4096, 8192, 8192, 8192]) (fun _ => rfl) h40 h41) h42) h43) h44)) h45) h46) (check_cut (c1 := [49152, 49152, 16384, 32768]) (c2 := [49152, 49152, 49152, 32768]) (h := [16384, 16384, 16384, 32768]) (fun _ => rfl) (check_cut (c1 := [49152, 49152, 16384, 16384]) (c2 := [49152, 49152, 16384, 49152]) (h := [16384, 16384, 16384, 16384]) (fun _ => rfl) (check_cut (c1 := [40960, 49152, 16384, 16384]) (c2 := [57344, 49152, 16384, 16384]) (h := [8192, 16384, 16384, 16384]) (fun _ => rfl) h47 (check_cut (c1 := [57344, 40960, 16384, 16384]) (c2 := [57344, 57344, 16384, 16384]) (h := [8192, 8192, 16384, 16384]) (fun _ => rfl) h48 h49)) h50) h51)))

end FastNoise.RangeCheck.Simplex4
