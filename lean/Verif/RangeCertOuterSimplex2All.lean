import Verif.RangeCheckLemmas
import Verif.RangeCertOuterSimplex2P0
/-! Generated by tools/rangecert/gen.py: a certificate for the checker `Verif.RangeCheck`. -/
namespace FastNoise.RangeCheck.OuterSimplex2

def tree : Tree := (.cut 0 (.cut 1 (.cut 0 t0 (.cut 1 (.cut 0 t1 t2) t3)) t4) (.cut 1 (.cut 0 (.cut 1 (.cut 0 t5 t6) t7) t8) t9))
theorem checked : check par tree [32768, 32768] [32768, 32768] st = true := (check_cut (c1 := [16384, 32768]) (c2 := [49152, 32768]) (h := [16384, 32768]) (fun _ => rfl) (check_cut (c1 := [16384, 16384]) (c2 := [16384, 49152]) (h := [16384, 16384]) (fun _ => rfl) (check_cut (c1 := [8192, 16384]) (c2 := [24576, 16384]) (h := [8192, 16384]) (fun _ => rfl) h0 (check_cut (c1 := [24576, 8192]) (c2 := [24576, 24576]) (h := [8192, 8192]) (fun _ => rfl) (check_cut (c1 := [20480, 8192]) (c2 := [28672, 8192]) (h := [4096, 8192]) (fun _ => rfl) h1 h2) h3)) h4) (check_cut (c1 := [49152, 16384]) (c2 := [49152, 49152]) (h := [16384, 16384]) (fun _ => rfl) (check_cut (c1 := [40960, 16384]) (c2 := [57344, 16384]) (h := [8192, 16384]) (fun _ => rfl) (check_cut (c1 := [40960, 8192]) (c2 := [40960, 24576]) (h := [8192, 8192]) (fun _ => rfl) (check_cut (c1 := [36864, 8192]) (c2 := [45056, 8192]) (h := [4096, 8192]) (fun _ => rfl) h5 h6) h7) h8) h9))

end FastNoise.RangeCheck.OuterSimplex2
