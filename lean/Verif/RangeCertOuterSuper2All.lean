import Verif.RangeCheckLemmas
import Verif.RangeCertOuterSuper2P0
/-! Generated by tools/rangecert/gen.py: a certificate for the checker `Verif.RangeCheck`. -/
namespace FastNoise.RangeCheck.OuterSuper2

def tree : Tree := (.cut 0 t0 (.cut 1 (.cut 0 (.cut 1 (.cut 0 (.cut 1 t1 (.cut 0 t2 (.cut 1 t3 (.cut 0 t4 (.cut 1 t5 (.cut 0 t6 (.cut 1 t7 (.cut 0 t8 t9)))))))) (.cut 1 t10 (.cut 0 (.cut 1 t11 (.cut 0 (.cut 1 t12 (.cut 0 (.cut 1 t13 (.cut 0 t14 t15)) t16)) t17)) t18))) (.cut 0 (.cut 1 (.cut 0 t19 (.cut 1 (.cut 0 t20 (.cut 1 (.cut 0 t21 (.cut 1 (.cut 0 (.cut 1 (.cut 0 t22 (.cut 1 (.cut 0 t23 (.cut 1 t24 t25)) t26)) t27) (.cut 1 t28 t29)) t30)) t31)) (.cut 0 t32 (.cut 1 t33 (.cut 0 t34 (.cut 1 t35 (.cut 0 (.cut 1 (.cut 0 t36 (.cut 1 t37 (.cut 0 t38 (.cut 1 t39 t40)))) t41) (.cut 1 t42 t43)))))))) (.cut 0 t44 t45)) (.cut 1 (.cut 0 (.cut 1 (.cut 0 (.cut 1 (.cut 0 (.cut 1 (.cut 0 t46 (.cut 1 (.cut 0 (.cut 1 (.cut 0 t47 (.cut 1 t48 t49)) t50) (.cut 1 t51 t52)) t53)) t54) t55) t56) t57) t58) t59) t60))) t61) t62))
theorem checked : check par tree [32768, 32768] [32768, 32768] st = true := (check_cut (c1 := [16384, 32768]) (c2 := [49152, 32768]) (h := [16384, 32768]) (fun _ => rfl) h0 (check_cut (c1 := [49152, 16384]) (c2 := [49152, 49152]) (h := [16384, 16384]) (fun _ => rfl) (check_cut (c1 := [40960, 16384]) (c2 := [57344, 16384]) (h := [8192, 16384]) (fun _ => rfl) (check_cut (c1 := [40960, 8192]) (c2 := [40960, 24576]) (h := [8192, 8192]) (fun _ => rfl) (check_cut (c1 := [36864, 8192]) (c2 := [45056, 8192]) (h := [4096, 8192]) (fun _ => rfl) (check_cut (c1 := [36864, 4096]) (c2 := [36864, 12288]) (h := [4096, 4096]) (fun _ => rfl) h1 (check_cut (c1 := [34816, 12288]) (c2 := [38912, 12288]) (h := [2048, 4096]) (fun _ => rfl) h2 (check_cut (c1 := [38912, 10240]) (c2 := [38912, 14336]) (h := [2048, 2048]) (fun _ => rfl) h3 (check_cut (c1 := [37888, 14336]) (c2 := [39936, 14336]) (h := [1024, 2048]) (fun _ => rfl) h4 (check_cut (c1 := [39936, 13312]) (c2 := [39936, 15360]) (h := [1024, 1024]) (fun _ => rfl) h5 (check_cut (c1 := [39424, 15360]) (c2 := [40448, 15360]) (h := [512, 1024]) (fun _ => rfl) h6 (check_cut (c1 := [40448, 14848]) (c2 := [40448, 15872]) (h := [512, 512]) (fun _ => rfl) h7 (check_cut (c1 := [40192, 15872]) (c2 := [40704, 15872]) (h := [256, 512]) (fun _ => rfl) h8 h9)))))))) (check_cut (c1 := [45056, 4096]) (c2 := [45056, 12288]) (h := [4096, 4096]) (fun _ => rfl) h10 (check_cut (c1 := [43008, 12288]) (c2 := [47104, 12288]) (h := [2048, 4096]) (fun _ => rfl) (check_cut (c1 := [43008, 10240]) (c2 := [43008, 14336]) (h := [2048, 2048]) (fun _ => rfl) h11 (check_cut (c1 := [41984, 14336]) (c2 := [44032, 14336]) (h := [1024, 2048]) (fun _ => rfl) (check_cut (c1 := [41984, 13312]) (c2 := [41984, 15360]) (h := [1024, 1024]) (fun _ => rfl) h12 (check_cut (c1 := [41472, 15360]) (c2 := [42496, 15360]) (h := [512, 1024]) (fun _ => rfl) (check_cut (c1 := [41472, 14848]) (c2 := [41472, 15872]) (h := [512, 512]) (fun _ => rfl) h13 (check_cut (c1 := [41216, 15872]) (c2 := [41728, 15872]) (h := [256, 512]) (fun _ => rfl) h14 h15)) h16)) h17)) h18))) (check_cut (c1 := [36864, 24576]) (c2 := [45056, 24576]) (h := [4096, 8192]) (fun _ => rfl) (check_cut (c1 := [36864, 20480]) (c2 := [36864, 28672]) (h := [4096, 4096]) (fun _ => rfl) (check_cut (c1 := [34816, 20480]) (c2 := [38912, 20480]) (h := [2048, 4096]) (fun _ => rfl) h19 (check_cut (c1 := [38912, 18432]) (c2 := [38912, 22528]) (h := [2048, 2048]) (fun _ => rfl) (check_cut (c1 := [37888, 18432]) (c2 := [39936, 18432]) (h := [1024, 2048]) (fun _ => rfl) h20 (check_cut (c1 := [39936, 17408]) (c2 := [39936, 19456]) (h := [1024, 1024]) (fun _ => rfl) (check_cut (c1 := [39424, 17408]) (c2 := [40448, 17408]) (h := [512, 1024]) (fun _ => rfl) h21 (check_cut (c1 := [40448, 16896]) (c2 := [40448, 17920]) (h := [512, 512]) (fun _ => rfl) (check_cut (c1 := [40192, 16896]) (c2 := [40704, 16896]) (h := [256, 512]) (fun _ => rfl) (check_cut (c1 := [40192, 16640]) (c2 := [40192, 17152]) (h := [256, 256]) (fun _ => rfl) (check_cut (c1 := [40064, 16640]) (c2 := [40320, 16640]) (h := [128, 256]) (fun _ => rfl) h22 (check_cut (c1 := [40320, 16512]) (c2 := [40320, 16768]) (h := [128, 128]) (fun _ => rfl) (check_cut (c1 := [40256, 16512]) (c2 := [40384, 16512]) (h := [64, 128]) (fun _ => rfl) h23 (check_cut (c1 := [40384, 16448]) (c2 := [40384, 16576]) (h := [64, 64]) (fun _ => rfl) h24 h25)) h26)) h27) (check_cut (c1 := [40704, 16640]) (c2 := [40704, 17152]) (h := [256, 256]) (fun _ => rfl) h28 h29)) h30)) h31)) (check_cut (c1 := [37888, 22528]) (c2 := [39936, 22528]) (h := [1024, 2048]) (fun _ => rfl) h32 (check_cut (c1 := [39936, 21504]) (c2 := [39936, 23552]) (h := [1024, 1024]) (fun _ => rfl) h33 (check_cut (c1 := [39424, 23552]) (c2 := [40448, 23552]) (h := [512, 1024]) (fun _ => rfl) h34 (check_cut (c1 := [40448, 23040]) (c2 := [40448, 24064]) (h := [512, 512]) (fun _ => rfl) h35 (check_cut (c1 := [40192, 24064]) (c2 := [40704, 24064]) (h := [256, 512]) (fun _ => rfl) (check_cut (c1 := [40192, 23808]) (c2 := [40192, 24320]) (h := [256, 256]) (fun _ => rfl) (check_cut (c1 := [40064, 23808]) (c2 := [40320, 23808]) (h := [128, 256]) (fun _ => rfl) h36 (check_cut (c1 := [40320, 23680]) (c2 := [40320, 23936]) (h := [128, 128]) (fun _ => rfl) h37 (check_cut (c1 := [40256, 23936]) (c2 := [40384, 23936]) (h := [64, 128]) (fun _ => rfl) h38 (check_cut (c1 := [40384, 23872]) (c2 := [40384, 24000]) (h := [64, 64]) (fun _ => rfl) h39 h40)))) h41) (check_cut (c1 := [40704, 23808]) (c2 := [40704, 24320]) (h := [256, 256]) (fun _ => rfl) h42 h43)))))))) (check_cut (c1 := [34816, 28672]) (c2 := [38912, 28672]) (h := [2048, 4096]) (fun _ => rfl) h44 h45)) (check_cut (c1 := [45056, 20480]) (c2 := [45056, 28672]) (h := [4096, 4096]) (fun _ => rfl) (check_cut (c1 := [43008, 20480]) (c2 := [47104, 20480]) (h := [2048, 4096]) (fun _ => rfl) (check_cut (c1 := [43008, 18432]) (c2 := [43008, 22528]) (h := [2048, 2048]) (fun _ => rfl) (check_cut (c1 := [41984, 18432]) (c2 := [44032, 18432]) (h := [1024, 2048]) (fun _ => rfl) (check_cut (c1 := [41984, 17408]) (c2 := [41984, 19456]) (h := [1024, 1024]) (fun _ => rfl) (check_cut (c1 := [41472, 17408]) (c2 := [42496, 17408]) (h := [512, 1024]) (fun _ => rfl) (check_cut (c1 := [41472, 16896]) (c2 := [41472, 17920]) (h := [512, 512]) (fun _ => rfl) (check_cut (c1 := [41216, 16896]) (c2 := [41728, 16896]) (h := [256, 512]) (fun _ => rfl) h46 (check_cut (c1 := [41728, 16640]) (c2 := [41728, 17152]) (h := [256, 256]) (fun _ => rfl) (check_cut (c1 := [41600, 16640]) (c2 := [41856, 16640]) (h := [128, 256]) (fun _ => rfl) (check_cut (c1 := [41600, 16512]) (c2 := [41600, 16768]) (h := [128, 128]) (fun _ => rfl) (check_cut (c1 := [41536, 16512]) (c2 := [41664, 16512]) (h := [64, 128]) (fun _ => rfl) h47 (check_cut (c1 := [41664, 16448]) (c2 := [41664, 16576]) (h := [64, 64]) (fun _ => rfl) h48 h49)) h50) (check_cut (c1 := [41856, 16512]) (c2 := [41856, 16768]) (h := [128, 128]) (fun _ => rfl) h51 h52)) h53)) h54) h55) h56) h57) h58) h59) h60))) h61) h62))

end FastNoise.RangeCheck.OuterSuper2
