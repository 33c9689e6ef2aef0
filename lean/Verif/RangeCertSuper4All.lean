import Verif.RangeCheckLemmas
import Verif.RangeCertSuper4P0
import Verif.RangeCertSuper4P1
import Verif.RangeCertSuper4P2
import Verif.RangeCertSuper4P3
import Verif.RangeCertSuper4P4
/-! Generated by tools/rangecert/gen.py: a certificate for the checker `Verif.RangeCheck`. -/
namespace FastNoise.RangeCheck.Super4

def tree : Tree := (.cut 0 (.cut 1 (.cut 2 (.cut 3 (.cut 0 t0 (.cut 1 t1 (.cut 2 t2 t3))) t4) t5) t6) (.cut 1 (.cut 2 (.cut 3 (.cut 0 (.cut 1 t7 (.cut 2 t8 (.cut 3 t9 (.cut 0 (.cut 1 t10 (.cut 2 t11 (.cut 3 t12 (.cut 0 (.cut 1 t13 (.cut 2 t14 (.cut 3 t15 t16))) t17)))) t18)))) t19) t20) t21) (.cut 2 (.cut 3 (.cut 0 (.cut 1 (.cut 2 t22 (.cut 3 t23 (.cut 0 (.cut 1 (.cut 2 t24 (.cut 3 t25 (.cut 0 t26 t27))) t28) t29))) t30) t31) t32) (.cut 3 (.cut 0 t33 t34) t35))))
theorem checked : check par tree [32768, 32768, 32768, 32768] [32768, 32768, 32768, 32768] st = true := (check_cut (c1 := [16384, 32768, 32768, 32768]) (c2 := [49152, 32768, 32768, 32768]) (h := [16384, 32768, 32768, 32768]) (fun _ => rfl) (check_cut (c1 := [16384, 16384, 32768, 32768]) (c2 := [16384, 49152, 32768, 32768]) (h := [16384, 16384, 32768, 32768]) (fun _ => rfl) (check_cut (c1 := [16384, 16384, 16384, 32768]) (c2 := [16384, 16384, 49152, 32768]) (h := [16384, 16384, 16384, 32768]) (fun _ => rfl) (check_cut (c1 := [16384, 16384, 16384, 16384]) (c2 := [16384, 16384, 16384, 49152]) (h := [16384, 16384, 16384, 16384]) (fun _ => rfl) (check_cut (c1 := [8192, 16384, 16384, 16384]) (c2 := [24576, 16384, 16384, 16384]) (h := [8192, 16384, 16384, 16384]) (fun _ => rfl) h0 (check_cut (c1 := [24576, 8192, 16384, 16384]) (c2 := [24576, 24576, 16384, 16384]) (h := [8192, 8192, 16384, 16384]) (fun _ => rfl) h1 (check_cut (c1 := [24576, 24576, 8192, 16384]) (c2 := [24576, 24576, 24576, 16384]) (h := [8192, 8192, 8192, 16384]) (fun _ => rfl) h2 h3))) h4) h5) h6) (check_cut (c1 := [49152, 16384, 32768, 32768]) (c2 := [49152, 49152, 32768, 32768]) (h := [16384, 16384, 32768, 32768]) (fun _ => rfl) (check_cut (c1 := [49152, 16384, 16384, 32768]) (c2 := [49152, 16384, 49152, 32768]) (h := [16384, 16384, 16384, 32768]) (fun _ => rfl) (check_cut (c1 := [49152, 16384, 16384, 16384]) (c2 := [49152, 16384, 16384, 49152]) (h := [16384, 16384, 16384, 16384]) (fun _ => rfl) (check_cut (c1 := [40960, 16384, 16384, 16384]) (c2 := [57344, 16384, 16384, 16384]) (h := [8192, 16384, 16384, 16384]) (fun _ => rfl) (check_cut (c1 := [40960, 8192, 16384, 16384]) (c2 := [40960, 24576, 16384, 16384]) (h := [8192, 8192, 16384, 16384]) (fun _ => rfl) h7 (check_cut (c1 := [40960, 24576, 8192, 16384]) (c2 := [40960, 24576, 24576, 16384]) (h := [8192, 8192, 8192, 16384]) (fun _ => rfl) h8 (check_cut (c1 := [40960, 24576, 24576, 8192]) (c2 := [40960, 24576, 24576, 24576]) (h := [8192, 8192, 8192, 8192]) (fun _ => rfl) h9 (check_cut (c1 := [36864, 24576, 24576, 24576]) (c2 := [45056, 24576, 24576, 24576]) (h := [4096, 8192, 8192, 8192]) (fun _ => rfl) (check_cut (c1 := [36864, 20480, 24576, 24576]) (c2 := [36864, 28672, 24576, 24576]) (h := [4096, 4096, 8192, 8192]) (fun _ => rfl) h10 (check_cut (c1 := [36864, 28672, 20480, 24576]) (c2 := [36864, 28672, 28672, 24576]) (h := [4096, 4096, 4096, 8192]) (fun _ => rfl) h11 (check_cut (c1 := [36864, 28672, 28672, 20480]) (c2 := [36864, 28672, 28672, 28672]) (h := [4096, 4096, 4096, 4096]) (fun _ => rfl) h12 (check_cut (c1 := [34816, 28672, 28672, 28672]) (c2 := [38912, 28672, 28672, 28672]) (h := [2048, 4096, 4096, 4096]) (fun _ => rfl) (check_cut (c1 := [34816, 26624, 28672, 28672]) (c2 := [34816, 30720, 28672, 28672]) (h := [2048, 2048, 4096, 4096]) (fun _ => rfl) h13 (check_cut (c1 := [34816, 30720, 26624, 28672]) (c2 := [34816, 30720, 30720, 28672]) (h := [2048, 2048, 2048, 4096]) (fun _ => rfl) h14 (check_cut (c1 := [34816, 30720, 30720, 26624]) (c2 := [34816, 30720, 30720, 30720]) (h := [2048, 2048, 2048, 2048]) (fun _ => rfl) h15 h16))) h17)))) h18)))) h19) h20) h21) (check_cut (c1 := [49152, 49152, 16384, 32768]) (c2 := [49152, 49152, 49152, 32768]) (h := [16384, 16384, 16384, 32768]) (fun _ => rfl) (check_cut (c1 := [49152, 49152, 16384, 16384]) (c2 := [49152, 49152, 16384, 49152]) (h := [16384, 16384, 16384, 16384]) (fun _ => rfl) (check_cut (c1 := [40960, 49152, 16384, 16384]) (c2 := [57344, 49152, 16384, 16384]) (h := [8192, 16384, 16384, 16384]) (fun _ => rfl) (check_cut (c1 := [40960, 40960, 16384, 16384]) (c2 := [40960, 57344, 16384, 16384]) (h := [8192, 8192, 16384, 16384]) (fun _ => rfl) (check_cut (c1 := [40960, 40960, 8192, 16384]) (c2 := [40960, 40960, 24576, 16384]) (h := [8192, 8192, 8192, 16384]) (fun _ => rfl) h22 (check_cut (c1 := [40960, 40960, 24576, 8192]) (c2 := [40960, 40960, 24576, 24576]) (h := [8192, 8192, 8192, 8192]) (fun _ => rfl) h23 (check_cut (c1 := [36864, 40960, 24576, 24576]) (c2 := [45056, 40960, 24576, 24576]) (h := [4096, 8192, 8192, 8192]) (fun _ => rfl) (check_cut (c1 := [36864, 36864, 24576, 24576]) (c2 := [36864, 45056, 24576, 24576]) (h := [4096, 4096, 8192, 8192]) (fun _ => rfl) (check_cut (c1 := [36864, 36864, 20480, 24576]) (c2 := [36864, 36864, 28672, 24576]) (h := [4096, 4096, 4096, 8192]) (fun _ => rfl) h24 (check_cut (c1 := [36864, 36864, 28672, 20480]) (c2 := [36864, 36864, 28672, 28672]) (h := [4096, 4096, 4096, 4096]) (fun _ => rfl) h25 (check_cut (c1 := [34816, 36864, 28672, 28672]) (c2 := [38912, 36864, 28672, 28672]) (h := [2048, 4096, 4096, 4096]) (fun _ => rfl) h26 h27))) h28) h29))) h30) h31) h32) (check_cut (c1 := [49152, 49152, 49152, 16384]) (c2 := [49152, 49152, 49152, 49152]) (h := [16384, 16384, 16384, 16384]) (fun _ => rfl) (check_cut (c1 := [40960, 49152, 49152, 16384]) (c2 := [57344, 49152, 49152, 16384]) (h := [8192, 16384, 16384, 16384]) (fun _ => rfl) h33 h34) h35))))

end FastNoise.RangeCheck.Super4
