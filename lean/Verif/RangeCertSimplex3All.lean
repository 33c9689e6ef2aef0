import Verif.RangeCheckLemmas
import Verif.RangeCertSimplex3P0
import Verif.RangeCertSimplex3P1
import Verif.RangeCertSimplex3P2
import Verif.RangeCertSimplex3P3
import Verif.RangeCertSimplex3P4
/-! Generated by tools/rangecert/gen.py: a certificate for the checker `Verif.RangeCheck`. -/
namespace FastNoise.RangeCheck.Simplex3

def tree : Tree := (.cut 0 (.cut 1 (.cut 2 (.cut 0 t0 (.cut 1 (.cut 2 (.cut 0 t1 (.cut 1 t2 (.cut 2 t3 (.cut 0 (.cut 1 t4 (.cut 2 t5 (.cut 0 (.cut 1 (.cut 2 (.cut 0 t6 (.cut 1 t7 (.cut 2 t8 t9))) t10) t11) t12))) t13)))) t14) t15)) t16) t17) (.cut 1 (.cut 2 (.cut 0 (.cut 1 t18 t19) (.cut 1 (.cut 2 (.cut 0 (.cut 1 t20 (.cut 2 (.cut 0 (.cut 1 t21 (.cut 2 (.cut 0 t22 (.cut 1 (.cut 2 (.cut 0 t23 (.cut 1 t24 (.cut 2 (.cut 0 (.cut 1 (.cut 2 (.cut 0 t25 t26) t27) t28) t29) t30))) t31) t32)) t33)) t34) t35)) t36) t37) t38)) t39) t40))
theorem checked : check par tree [32768, 32768, 32768] [32768, 32768, 32768] st = true := (check_cut (c1 := [16384, 32768, 32768]) (c2 := [49152, 32768, 32768]) (h := [16384, 32768, 32768]) (fun _ => rfl) (check_cut (c1 := [16384, 16384, 32768]) (c2 := [16384, 49152, 32768]) (h := [16384, 16384, 32768]) (fun _ => rfl) (check_cut (c1 := [16384, 16384, 16384]) (c2 := [16384, 16384, 49152]) (h := [16384, 16384, 16384]) (fun _ => rfl) (check_cut (c1 := [8192, 16384, 16384]) (c2 := [24576, 16384, 16384]) (h := [8192, 16384, 16384]) (fun _ => rfl) h0 (check_cut (c1 := [24576, 8192, 16384]) (c2 := [24576, 24576, 16384]) (h := [8192, 8192, 16384]) (fun _ => rfl) (check_cut (c1 := [24576, 8192, 8192]) (c2 := [24576, 8192, 24576]) (h := [8192, 8192, 8192]) (fun _ => rfl) (check_cut (c1 := [20480, 8192, 8192]) (c2 := [28672, 8192, 8192]) (h := [4096, 8192, 8192]) (fun _ => rfl) h1 (check_cut (c1 := [28672, 4096, 8192]) (c2 := [28672, 12288, 8192]) (h := [4096, 4096, 8192]) (fun _ => rfl) h2 (check_cut (c1 := [28672, 12288, 4096]) (c2 := [28672, 12288, 12288]) (h := [4096, 4096, 4096]) (fun _ => rfl) h3 (check_cut (c1 := [26624, 12288, 12288]) (c2 := [30720, 12288, 12288]) (h := [2048, 4096, 4096]) (fun _ => rfl) (check_cut (c1 := [26624, 10240, 12288]) (c2 := [26624, 14336, 12288]) (h := [2048, 2048, 4096]) (fun _ => rfl) h4 (check_cut (c1 := [26624, 14336, 10240]) (c2 := [26624, 14336, 14336]) (h := [2048, 2048, 2048]) (fun _ => rfl) h5 (check_cut (c1 := [25600, 14336, 14336]) (c2 := [27648, 14336, 14336]) (h := [1024, 2048, 2048]) (fun _ => rfl) (check_cut (c1 := [25600, 13312, 14336]) (c2 := [25600, 15360, 14336]) (h := [1024, 1024, 2048]) (fun _ => rfl) (check_cut (c1 := [25600, 13312, 13312]) (c2 := [25600, 13312, 15360]) (h := [1024, 1024, 1024]) (fun _ => rfl) (check_cut (c1 := [25088, 13312, 13312]) (c2 := [26112, 13312, 13312]) (h := [512, 1024, 1024]) (fun _ => rfl) h6 (check_cut (c1 := [26112, 12800, 13312]) (c2 := [26112, 13824, 13312]) (h := [512, 512, 1024]) (fun _ => rfl) h7 (check_cut (c1 := [26112, 13824, 12800]) (c2 := [26112, 13824, 13824]) (h := [512, 512, 512]) (fun _ => rfl) h8 h9))) h10) h11) h12))) h13)))) h14) h15)) h16) h17) (check_cut (c1 := [49152, 16384, 32768]) (c2 := [49152, 49152, 32768]) (h := [16384, 16384, 32768]) (fun _ => rfl) (check_cut (c1 := [49152, 16384, 16384]) (c2 := [49152, 16384, 49152]) (h := [16384, 16384, 16384]) (fun _ => rfl) (check_cut (c1 := [40960, 16384, 16384]) (c2 := [57344, 16384, 16384]) (h := [8192, 16384, 16384]) (fun _ => rfl) (check_cut (c1 := [40960, 8192, 16384]) (c2 := [40960, 24576, 16384]) (h := [8192, 8192, 16384]) (fun _ => rfl) h18 h19) (check_cut (c1 := [57344, 8192, 16384]) (c2 := [57344, 24576, 16384]) (h := [8192, 8192, 16384]) (fun _ => rfl) (check_cut (c1 := [57344, 8192, 8192]) (c2 := [57344, 8192, 24576]) (h := [8192, 8192, 8192]) (fun _ => rfl) (check_cut (c1 := [53248, 8192, 8192]) (c2 := [61440, 8192, 8192]) (h := [4096, 8192, 8192]) (fun _ => rfl) (check_cut (c1 := [53248, 4096, 8192]) (c2 := [53248, 12288, 8192]) (h := [4096, 4096, 8192]) (fun _ => rfl) h20 (check_cut (c1 := [53248, 12288, 4096]) (c2 := [53248, 12288, 12288]) (h := [4096, 4096, 4096]) (fun _ => rfl) (check_cut (c1 := [51200, 12288, 4096]) (c2 := [55296, 12288, 4096]) (h := [2048, 4096, 4096]) (fun _ => rfl) (check_cut (c1 := [51200, 10240, 4096]) (c2 := [51200, 14336, 4096]) (h := [2048, 2048, 4096]) (fun _ => rfl) h21 (check_cut (c1 := [51200, 14336, 2048]) (c2 := [51200, 14336, 6144]) (h := [2048, 2048, 2048]) (fun _ => rfl) (check_cut (c1 := [50176, 14336, 2048]) (c2 := [52224, 14336, 2048]) (h := [1024, 2048, 2048]) (fun _ => rfl) h22 (check_cut (c1 := [52224, 13312, 2048]) (c2 := [52224, 15360, 2048]) (h := [1024, 1024, 2048]) (fun _ => rfl) (check_cut (c1 := [52224, 13312, 1024]) (c2 := [52224, 13312, 3072]) (h := [1024, 1024, 1024]) (fun _ => rfl) (check_cut (c1 := [51712, 13312, 1024]) (c2 := [52736, 13312, 1024]) (h := [512, 1024, 1024]) (fun _ => rfl) h23 (check_cut (c1 := [52736, 12800, 1024]) (c2 := [52736, 13824, 1024]) (h := [512, 512, 1024]) (fun _ => rfl) h24 (check_cut (c1 := [52736, 13824, 512]) (c2 := [52736, 13824, 1536]) (h := [512, 512, 512]) (fun _ => rfl) (check_cut (c1 := [52480, 13824, 512]) (c2 := [52992, 13824, 512]) (h := [256, 512, 512]) (fun _ => rfl) (check_cut (c1 := [52480, 13568, 512]) (c2 := [52480, 14080, 512]) (h := [256, 256, 512]) (fun _ => rfl) (check_cut (c1 := [52480, 13568, 256]) (c2 := [52480, 13568, 768]) (h := [256, 256, 256]) (fun _ => rfl) (check_cut (c1 := [52352, 13568, 256]) (c2 := [52608, 13568, 256]) (h := [128, 256, 256]) (fun _ => rfl) h25 h26) h27) h28) h29) h30))) h31) h32)) h33)) h34) h35)) h36) h37) h38)) h39) h40))

end FastNoise.RangeCheck.Simplex3
