import Verif.RangeCheckLemmas
import Verif.RangeCertOuterSimplex4P0
import Verif.RangeCertOuterSimplex4P1
import Verif.RangeCertOuterSimplex4P2
import Verif.RangeCertOuterSimplex4P3
import Verif.RangeCertOuterSimplex4P4
import Verif.RangeCertOuterSimplex4P5
import Verif.RangeCertOuterSimplex4P6
import Verif.RangeCertOuterSimplex4P7
/-! Generated by tools/rangecert/gen.py: a certificate for the checker `Verif.RangeCheck`. -/
namespace FastNoise.RangeCheck.OuterSimplex4

def tree : Tree := (.cut 0 (.cut 1 (.cut 2 (.cut 3 (.cut 0 (.cut 1 (.cut 2 t0 t1) t2) (.cut 1 (.cut 2 (.cut 3 (.cut 0 (.cut 1 (.cut 2 t3 t4) (.cut 2 (.cut 3 t5 t6) (.cut 3 (.cut 0 t7 t8) (.cut 0 t9 (.cut 1 (.cut 2 (.cut 3 (.cut 0 t10 (.cut 1 t11 (.cut 2 t12 (.cut 3 t13 (.cut 0 t14 (.cut 1 t15 (.cut 2 t16 (.cut 3 t17 (.cut 0 t18 (.cut 1 t19 (.cut 2 t20 (.cut 3 t21 (.cut 0 t22 (.cut 1 t23 (.cut 2 t24 (.cut 3 t25 (.cut 0 t26 (.cut 1 t27 (.cut 2 t28 (.cut 3 t29 (.cut 0 (.cut 1 t30 (.cut 2 t31 (.cut 3 t32 t33))) (.cut 1 t34 (.cut 2 t35 (.cut 3 t36 (.cut 0 (.cut 1 t37 t38) t39))))))))))))))))))))))))) t40) (.cut 3 (.cut 0 t41 (.cut 1 t42 (.cut 2 (.cut 3 t43 (.cut 0 t44 (.cut 1 t45 (.cut 2 (.cut 3 t46 (.cut 0 t47 t48)) t49)))) t50))) t51)) (.cut 2 (.cut 3 (.cut 0 t52 (.cut 1 (.cut 2 t53 (.cut 3 t54 (.cut 0 t55 (.cut 1 (.cut 2 t56 (.cut 3 t57 (.cut 0 t58 (.cut 1 (.cut 2 t59 (.cut 3 t60 (.cut 0 t61 (.cut 1 (.cut 2 t62 (.cut 3 t63 (.cut 0 t64 (.cut 1 (.cut 2 t65 (.cut 3 t66 (.cut 0 (.cut 1 t67 t68) (.cut 1 (.cut 2 t69 (.cut 3 t70 (.cut 0 t71 t72))) t73)))) t74)))) t75)))) t76)))) t77)))) t78)) (.cut 0 t79 (.cut 1 (.cut 2 t80 (.cut 3 (.cut 0 t81 t82) t83)) t84))) (.cut 3 (.cut 0 t85 (.cut 1 (.cut 2 (.cut 3 t86 (.cut 0 t87 (.cut 1 (.cut 2 (.cut 3 t88 (.cut 0 t89 (.cut 1 (.cut 2 (.cut 3 t90 (.cut 0 t91 (.cut 1 (.cut 2 (.cut 3 t92 (.cut 0 t93 (.cut 1 (.cut 2 (.cut 3 t94 (.cut 0 t95 (.cut 1 (.cut 2 t96 t97) t98))) t99) t100))) t101) t102))) t103) t104))) t105) t106))) t107) t108)) (.cut 0 t109 (.cut 1 (.cut 2 (.cut 3 (.cut 0 t110 (.cut 1 (.cut 2 (.cut 3 (.cut 0 t111 (.cut 1 (.cut 2 (.cut 3 (.cut 0 t112 (.cut 1 (.cut 2 (.cut 3 (.cut 0 t113 (.cut 1 (.cut 2 (.cut 3 (.cut 0 t114 t115) t116) t117) t118)) t119) t120) t121)) t122) t123) t124)) t125) t126) t127)) t128) t129) t130))))))))) (.cut 1 (.cut 2 (.cut 3 t131 t132) t133) (.cut 2 (.cut 3 (.cut 0 t134 t135) t136) (.cut 3 (.cut 0 (.cut 1 t137 t138) t139) (.cut 0 (.cut 1 (.cut 2 (.cut 3 (.cut 0 (.cut 1 t140 (.cut 2 t141 (.cut 3 t142 (.cut 0 (.cut 1 t143 (.cut 2 t144 (.cut 3 t145 (.cut 0 (.cut 1 t146 (.cut 2 t147 (.cut 3 t148 (.cut 0 (.cut 1 t149 (.cut 2 t150 (.cut 3 t151 t152))) t153)))) t154)))) t155)))) t156) t157) (.cut 3 t158 t159)) (.cut 2 (.cut 3 (.cut 0 (.cut 1 (.cut 2 t160 (.cut 3 t161 (.cut 0 (.cut 1 (.cut 2 t162 (.cut 3 t163 (.cut 0 (.cut 1 (.cut 2 t164 (.cut 3 t165 (.cut 0 (.cut 1 (.cut 2 t166 (.cut 3 t167 t168)) t169) t170))) t171) t172))) t173) t174))) t175) t176) t177) (.cut 3 (.cut 0 (.cut 1 (.cut 2 (.cut 3 t178 (.cut 0 (.cut 1 (.cut 2 (.cut 3 t179 (.cut 0 (.cut 1 (.cut 2 (.cut 3 t180 (.cut 0 (.cut 1 (.cut 2 (.cut 3 t181 (.cut 0 t182 t183)) t184) t185) t186)) t187) t188) t189)) t190) t191) t192)) t193) t194) t195) (.cut 0 (.cut 1 (.cut 2 (.cut 3 (.cut 0 (.cut 1 (.cut 2 (.cut 3 (.cut 0 (.cut 1 (.cut 2 (.cut 3 (.cut 0 (.cut 1 (.cut 2 (.cut 3 t196 t197) t198) t199) t200) t201) t202) t203) t204) t205) t206) t207) t208) t209) t210) t211) t212)))) t213))))) t214) (.cut 3 t215 t216)) (.cut 2 (.cut 3 (.cut 0 (.cut 1 (.cut 2 t217 t218) t219) (.cut 1 (.cut 2 t220 (.cut 3 t221 (.cut 0 (.cut 1 t222 t223) t224))) t225)) t226) (.cut 3 (.cut 0 (.cut 1 t227 t228) (.cut 1 (.cut 2 (.cut 3 t229 (.cut 0 t230 t231)) t232) t233)) (.cut 0 (.cut 1 t234 t235) (.cut 1 (.cut 2 (.cut 3 t236 t237) t238) (.cut 2 t239 t240))))))) t241) t242) t243) (.cut 1 (.cut 2 (.cut 3 (.cut 0 (.cut 1 (.cut 2 (.cut 3 (.cut 0 (.cut 1 (.cut 2 t244 t245) (.cut 2 t246 (.cut 3 t247 t248))) (.cut 1 (.cut 2 (.cut 3 (.cut 0 t249 t250) t251) t252) (.cut 2 (.cut 3 (.cut 0 t253 (.cut 1 t254 t255)) t256) t257))) t258) t259) (.cut 2 (.cut 3 (.cut 0 (.cut 1 t260 t261) (.cut 1 t262 t263)) t264) (.cut 3 (.cut 0 (.cut 1 t265 t266) t267) (.cut 0 (.cut 1 t268 (.cut 2 t269 t270)) t271)))) (.cut 1 (.cut 2 (.cut 3 (.cut 0 (.cut 1 (.cut 2 (.cut 3 (.cut 0 t272 t273) t274) t275) (.cut 2 (.cut 3 (.cut 0 (.cut 1 (.cut 2 (.cut 3 (.cut 0 t276 (.cut 1 t277 (.cut 2 (.cut 3 (.cut 0 t278 (.cut 1 t279 (.cut 2 (.cut 3 (.cut 0 t280 (.cut 1 t281 (.cut 2 (.cut 3 (.cut 0 t282 (.cut 1 t283 (.cut 2 (.cut 3 (.cut 0 t284 (.cut 1 t285 (.cut 2 (.cut 3 (.cut 0 t286 (.cut 1 t287 (.cut 2 t288 t289))) t290) t291))) t292) t293))) t294) t295))) t296) t297))) t298) t299))) t300) t301) (.cut 2 (.cut 3 (.cut 0 t302 (.cut 1 (.cut 2 (.cut 3 (.cut 0 t303 (.cut 1 (.cut 2 (.cut 3 (.cut 0 t304 (.cut 1 (.cut 2 (.cut 3 (.cut 0 t305 (.cut 1 (.cut 2 (.cut 3 (.cut 0 t306 (.cut 1 t307 t308)) t309) t310) t311)) t312) t313) t314)) t315) t316) t317)) t318) t319) t320)) t321) t322)) (.cut 1 (.cut 2 (.cut 3 (.cut 0 (.cut 1 t323 (.cut 2 (.cut 3 (.cut 0 (.cut 1 t324 (.cut 2 (.cut 3 (.cut 0 (.cut 1 t325 (.cut 2 (.cut 3 (.cut 0 (.cut 1 t326 (.cut 2 (.cut 3 (.cut 0 (.cut 1 t327 (.cut 2 (.cut 3 (.cut 0 (.cut 1 t328 (.cut 2 (.cut 3 (.cut 0 (.cut 1 t329 (.cut 2 t330 t331)) (.cut 1 t332 (.cut 2 t333 (.cut 3 t334 t335)))) t336) (.cut 3 t337 t338))) (.cut 1 t339 (.cut 2 (.cut 3 (.cut 0 t340 t341) t342) t343))) t344) t345)) t346) t347) t348)) t349) t350) t351)) t352) t353) t354)) t355) t356) t357)) t358) t359) t360) (.cut 2 (.cut 3 (.cut 0 (.cut 1 (.cut 2 (.cut 3 (.cut 0 (.cut 1 (.cut 2 (.cut 3 (.cut 0 (.cut 1 (.cut 2 (.cut 3 (.cut 0 (.cut 1 (.cut 2 (.cut 3 (.cut 0 (.cut 1 (.cut 2 (.cut 3 (.cut 0 (.cut 1 (.cut 2 (.cut 3 (.cut 0 t361 (.cut 1 (.cut 2 t362 (.cut 3 t363 t364)) t365)) t366) (.cut 3 t367 t368)) t369) (.cut 1 (.cut 2 (.cut 3 (.cut 0 (.cut 1 t370 t371) t372) t373) (.cut 3 t374 t375)) t376)) t377) (.cut 3 t378 t379)) t380) (.cut 1 (.cut 2 (.cut 3 (.cut 0 t381 t382) t383) t384) t385)) t386) t387) t388) (.cut 1 (.cut 2 t389 t390) t391)) t392) t393) (.cut 2 t394 t395)) (.cut 1 (.cut 2 t396 t397) t398)) t399) t400) (.cut 2 t401 t402)) (.cut 1 (.cut 2 t403 t404) t405)) t406) t407) (.cut 2 t408 t409)) (.cut 1 (.cut 2 t410 t411) t412)) t413) (.cut 3 t414 t415)))) t416) (.cut 3 t417 t418))) (.cut 1 t419 (.cut 2 (.cut 3 (.cut 0 (.cut 1 t420 (.cut 2 t421 t422)) t423) t424) t425))) t426) t427) (.cut 2 (.cut 3 (.cut 0 (.cut 1 (.cut 2 (.cut 3 (.cut 0 t428 (.cut 1 (.cut 2 (.cut 3 t429 t430) t431) t432)) t433) (.cut 3 t434 t435)) (.cut 2 t436 t437)) (.cut 1 (.cut 2 (.cut 3 (.cut 0 (.cut 1 (.cut 2 t438 t439) t440) t441) t442) (.cut 3 t443 t444)) (.cut 2 (.cut 3 (.cut 0 t445 t446) t447) (.cut 3 t448 t449)))) t450) (.cut 3 (.cut 0 t451 t452) t453)))) t454) t455) (.cut 2 (.cut 3 (.cut 0 (.cut 1 (.cut 2 (.cut 3 (.cut 0 t456 t457) t458) (.cut 3 (.cut 0 t459 t460) (.cut 0 t461 t462))) t463) (.cut 1 (.cut 2 (.cut 3 (.cut 0 (.cut 1 t464 (.cut 2 t465 t466)) (.cut 1 (.cut 2 (.cut 3 (.cut 0 t467 t468) t469) t470) (.cut 2 (.cut 3 (.cut 0 t471 (.cut 1 t472 t473)) t474) (.cut 3 (.cut 0 (.cut 1 t475 t476) (.cut 1 t477 (.cut 2 (.cut 3 t478 t479) t480))) t481)))) t482) (.cut 3 (.cut 0 (.cut 1 t483 t484) (.cut 1 t485 t486)) t487)) (.cut 2 (.cut 3 (.cut 0 (.cut 1 (.cut 2 t488 t489) t490) (.cut 1 (.cut 2 (.cut 3 (.cut 0 t491 (.cut 1 t492 t493)) t494) (.cut 3 (.cut 0 (.cut 1 t495 t496) (.cut 1 (.cut 2 (.cut 3 (.cut 0 (.cut 1 t497 t498) (.cut 1 (.cut 2 t499 t500) (.cut 2 t501 (.cut 3 (.cut 0 (.cut 1 t502 t503) (.cut 1 (.cut 2 t504 t505) (.cut 2 t506 (.cut 3 (.cut 0 (.cut 1 t507 t508) (.cut 1 t509 (.cut 2 t510 (.cut 3 (.cut 0 (.cut 1 t511 t512) (.cut 1 t513 (.cut 2 t514 (.cut 3 (.cut 0 (.cut 1 t515 t516) (.cut 1 t517 (.cut 2 (.cut 3 t518 t519) (.cut 3 (.cut 0 (.cut 1 t520 (.cut 2 t521 t522)) (.cut 1 t523 (.cut 2 (.cut 3 (.cut 0 t524 t525) t526) (.cut 3 (.cut 0 t527 t528) t529)))) t530)))) t531)))) t532)))) t533)))) t534)))) t535) (.cut 3 (.cut 0 t536 (.cut 1 t537 (.cut 2 (.cut 3 (.cut 0 t538 (.cut 1 t539 (.cut 2 (.cut 3 (.cut 0 t540 (.cut 1 t541 (.cut 2 (.cut 3 (.cut 0 t542 (.cut 1 t543 (.cut 2 (.cut 3 (.cut 0 t544 (.cut 1 t545 (.cut 2 t546 t547))) t548) t549))) t550) t551))) t552) t553))) t554) t555))) t556)) (.cut 2 (.cut 3 (.cut 0 t557 (.cut 1 (.cut 2 t558 (.cut 3 (.cut 0 t559 (.cut 1 (.cut 2 t560 (.cut 3 (.cut 0 t561 (.cut 1 (.cut 2 t562 (.cut 3 (.cut 0 t563 (.cut 1 (.cut 2 t564 (.cut 3 (.cut 0 t565 (.cut 1 (.cut 2 t566 (.cut 3 (.cut 0 (.cut 1 (.cut 2 t567 t568) t569) (.cut 1 (.cut 2 (.cut 3 (.cut 0 t570 t571) t572) (.cut 3 (.cut 0 (.cut 1 (.cut 2 t573 t574) t575) (.cut 1 (.cut 2 (.cut 3 (.cut 0 t576 t577) t578) (.cut 3 (.cut 0 t579 t580) t581)) (.cut 2 t582 t583))) t584)) t585)) t586)) t587)) t588)) t589)) t590)) t591)) t592)) t593)) t594)) t595)) t596) (.cut 3 (.cut 0 t597 (.cut 1 (.cut 2 (.cut 3 (.cut 0 t598 (.cut 1 (.cut 2 (.cut 3 (.cut 0 t599 (.cut 1 (.cut 2 (.cut 3 (.cut 0 t600 (.cut 1 (.cut 2 (.cut 3 (.cut 0 t601 (.cut 1 (.cut 2 (.cut 3 (.cut 0 t602 t603) t604) t605) t606)) t607) t608) t609)) t610) t611) t612)) t613) t614) t615)) t616) t617) t618)) t619)))) t620)) t621)) t622) (.cut 3 (.cut 0 t623 t624) t625)))) t626) (.cut 3 (.cut 0 (.cut 1 (.cut 2 (.cut 3 t627 t628) t629) t630) t631) t632))))
theorem checked : check par tree [32768, 32768, 32768, 32768] [32768, 32768, 32768, 32768] st = true := (check_cut (c1 := [16384, 32768, 32768, 32768]) (c2 := [49152, 32768, 32768, 32768]) (h := [16384, 32768, 32768, 32768]) (fun _ => rfl) (check_cut (c1 := [16384, 16384, 32768, 32768]) (c2 := [16384, 49152, 32768, 32768]) (h := [16384, 16384, 32768, 32768]) (fun _ => rfl) (check_cut (c1 := [16384, 16384, 16384, 32768]) (c2 := [16384, 16384, 49152, 32768]) (h := [16384, 16384, 16384, 32768]) (fun _ => rfl) (check_cut (c1 := [16384, 16384, 16384, 16384]) (c2 := [16384, 16384, 16384, 49152]) (h := [16384, 16384, 16384, 16384]) (fun _ => rfl) (check_cut (c1 := [8192, 16384, 16384, 16384]) (c2 := [24576, 16384, 16384, 16384]) (h := [8192, 16384, 16384, 16384]) (fun _ => rfl) (check_cut (c1 := [8192, 8192, 16384, 16384]) (c2 := [8192, 24576, 16384, 16384]) (h := [8192, 8192, 16384, 16384]) (fun _ => rfl) (check_cut (c1 := [8192, 8192, 8192, 16384]) (c2 := [8192, 8192, 24576, 16384]) (h := [8192, 8192, 8192, 16384]) (fun _ => rfl) h0 h1) h2) (check_cut (c1 := [24576, 8192, 16384, 16384]) (c2 := [24576, 24576, 16384, 16384]) (h := [8192, 8192, 16384, 16384]) (fun _ => rfl) (check_cut (c1 := [24576, 8192, 8192, 16384]) (c2 := [24576, 8192, 24576, 16384]) (h := [8192, 8192, 8192, 16384]) (fun _ => rfl) (check_cut (c1 := [24576, 8192, 8192, 8192]) (c2 := [24576, 8192, 8192, 24576]) (h := [8192, 8192, 8192, 8192]) (fun _ => rfl) (check_cut (c1 := [20480, 8192, 8192, 8192]) (c2 := [28672, 8192, 8192, 8192]) (h := [4096, 8192, 8192, 8192]) (fun _ => rfl) (check_cut (c1 := [20480, 4096, 8192, 8192]) (c2 := [20480, 12288, 8192, 8192]) (h := [4096, 4096, 8192, 8192]) (fun _ => rfl) (check_cut (c1 := [20480, 4096, 4096, 8192]) (c2 := [20480, 4096, 12288, 8192]) (h := [4096, 4096, 4096, 8192]) (fun _ => rfl) h3 h4) (check_cut (c1 := [20480, 12288, 4096, 8192]) (c2 := [20480, 12288, 12288, 8192]) (h := [4096, 4096, 4096, 8192]) (fun _ => rfl) (check_cut (c1 := [20480, 12288, 4096, 4096]) (c2 := [20480, 12288, 4096, 12288]) (h := [4096, 4096, 4096, 4096]) (fun _ => rfl) h5 h6) (check_cut (c1 := [20480, 12288, 12288, 4096]) (c2 := [20480, 12288, 12288, 12288]) (h := [4096, 4096, 4096, 4096]) (fun _ => rfl) (check_cut (c1 := [18432, 12288, 12288, 4096]) (c2 := [22528, 12288, 12288, 4096]) (h := [2048, 4096, 4096, 4096]) (fun _ => rfl) h7 h8) (check_cut (c1 := [18432, 12288, 12288, 12288]) (c2 := [22528, 12288, 12288, 12288]) (h := [2048, 4096, 4096, 4096]) (fun _ => rfl) h9 (check_cut (c1 := [22528, 10240, 12288, 12288]) (c2 := [22528, 14336, 12288, 12288]) (h := [2048, 2048, 4096, 4096]) (fun _ => rfl) (check_cut (c1 := [22528, 10240, 10240, 12288]) (c2 := [22528, 10240, 14336, 12288]) (h := [2048, 2048, 2048, 4096]) (fun _ => rfl) (check_cut (c1 := [22528, 10240, 10240, 10240]) (c2 := [22528, 10240, 10240, 14336]) (h := [2048, 2048, 2048, 2048]) (fun _ => rfl) (check_cut (c1 := [21504, 10240, 10240, 10240]) (c2 := [23552, 10240, 10240, 10240]) (h := [1024, 2048, 2048, 2048]) (fun _ => rfl) h10 (check_cut (c1 := [23552, 9216, 10240, 10240]) (c2 := [23552, 11264, 10240, 10240]) (h := [1024, 1024, 2048, 2048]) (fun _ => rfl) h11 (check_cut (c1 := [23552, 11264, 9216, 10240]) (c2 := [23552, 11264, 11264, 10240]) (h := [1024, 1024, 1024, 2048]) (fun _ => rfl) h12 (check_cut (c1 := [23552, 11264, 11264, 9216]) (c2 := [23552, 11264, 11264, 11264]) (h := [1024, 1024, 1024, 1024]) (fun _ => rfl) h13 (check_cut (c1 := [23040, 11264, 11264, 11264]) (c2 := [24064, 11264, 11264, 11264]) (h := [512, 1024, 1024, 1024]) (fun _ => rfl) h14 (check_cut (c1 := [24064, 10752, 11264, 11264]) (c2 := [24064, 11776, 11264, 11264]) (h := [512, 512, 1024, 1024]) (fun _ => rfl) h15 (check_cut (c1 := [24064, 11776, 10752, 11264]) (c2 := [24064, 11776, 11776, 11264]) (h := [512, 512, 512, 1024]) (fun _ => rfl) h16 (check_cut (c1 := [24064, 11776, 11776, 10752]) (c2 := [24064, 11776, 11776, 11776]) (h := [512, 512, 512, 512]) (fun _ => rfl) h17 (check_cut (c1 := [23808, 11776, 11776, 11776]) (c2 := [24320, 11776, 11776, 11776]) (h := [256, 512, 512, 512]) (fun _ => rfl) h18 (check_cut (c1 := [24320, 11520, 11776, 11776]) (c2 := [24320, 12032, 11776, 11776]) (h := [256, 256, 512, 512]) (fun _ => rfl) h19 (check_cut (c1 := [24320, 12032, 11520, 11776]) (c2 := [24320, 12032, 12032, 11776]) (h := [256, 256, 256, 512]) (fun _ => rfl) h20 (check_cut (c1 := [24320, 12032, 12032, 11520]) (c2 := [24320, 12032, 12032, 12032]) (h := [256, 256, 256, 256]) (fun _ => rfl) h21 (check_cut (c1 := [24192, 12032, 12032, 12032]) (c2 := [24448, 12032, 12032, 12032]) (h := [128, 256, 256, 256]) (fun _ => rfl) h22 (check_cut (c1 := [24448, 11904, 12032, 12032]) (c2 := [24448, 12160, 12032, 12032]) (h := [128, 128, 256, 256]) (fun _ => rfl) h23 (check_cut (c1 := [24448, 12160, 11904, 12032]) (c2 := [24448, 12160, 12160, 12032]) (h := [128, 128, 128, 256]) (fun _ => rfl) h24 (check_cut (c1 := [24448, 12160, 12160, 11904]) (c2 := [24448, 12160, 12160, 12160]) (h := [128, 128, 128, 128]) (fun _ => rfl) h25 (check_cut (c1 := [24384, 12160, 12160, 12160]) (c2 := [24512, 12160, 12160, 12160]) (h := [64, 128, 128, 128]) (fun _ => rfl) h26 (check_cut (c1 := [24512, 12096, 12160, 12160]) (c2 := [24512, 12224, 12160, 12160]) (h := [64, 64, 128, 128]) (fun _ => rfl) h27 (check_cut (c1 := [24512, 12224, 12096, 12160]) (c2 := [24512, 12224, 12224, 12160]) (h := [64, 64, 64, 128]) (fun _ => rfl) h28 (check_cut (c1 := [24512, 12224, 12224, 12096]) (c2 := [24512, 12224, 12224, 12224]) (h := [64, 64, 64, 64]) (fun _ => rfl) h29 (check_cut (c1 := [24480, 12224, 12224, 12224]) (c2 := [24544, 12224, 12224, 12224]) (h := [32, 64, 64, 64]) (fun _ => rfl) (check_cut (c1 := [24480, 12192, 12224, 12224]) (c2 := [24480, 12256, 12224, 12224]) (h := [32, 32, 64, 64]) (fun _ => rfl) h30 (check_cut (c1 := [24480, 12256, 12192, 12224]) (c2 := [24480, 12256, 12256, 12224]) (h := [32, 32, 32, 64]) (fun _ => rfl) h31 (check_cut (c1 := [24480, 12256, 12256, 12192]) (c2 := [24480, 12256, 12256, 12256]) (h := [32, 32, 32, 32]) (fun _ => rfl) h32 h33))) (check_cut (c1 := [24544, 12192, 12224, 12224]) (c2 := [24544, 12256, 12224, 12224]) (h := [32, 32, 64, 64]) (fun _ => rfl) h34 (check_cut (c1 := [24544, 12256, 12192, 12224]) (c2 := [24544, 12256, 12256, 12224]) (h := [32, 32, 32, 64]) (fun _ => rfl) h35 (check_cut (c1 := [24544, 12256, 12256, 12192]) (c2 := [24544, 12256, 12256, 12256]) (h := [32, 32, 32, 32]) (fun _ => rfl) h36 (check_cut (c1 := [24528, 12256, 12256, 12256]) (c2 := [24560, 12256, 12256, 12256]) (h := [16, 32, 32, 32]) (fun _ => rfl) (check_cut (c1 := [24528, 12240, 12256, 12256]) (c2 := [24528, 12272, 12256, 12256]) (h := [16, 16, 32, 32]) (fun _ => rfl) h37 h38) h39))))))))))))))))))))))))) h40) (check_cut (c1 := [22528, 10240, 14336, 10240]) (c2 := [22528, 10240, 14336, 14336]) (h := [2048, 2048, 2048, 2048]) (fun _ => rfl) (check_cut (c1 := [21504, 10240, 14336, 10240]) (c2 := [23552, 10240, 14336, 10240]) (h := [1024, 2048, 2048, 2048]) (fun _ => rfl) h41 (check_cut (c1 := [23552, 9216, 14336, 10240]) (c2 := [23552, 11264, 14336, 10240]) (h := [1024, 1024, 2048, 2048]) (fun _ => rfl) h42 (check_cut (c1 := [23552, 11264, 13312, 10240]) (c2 := [23552, 11264, 15360, 10240]) (h := [1024, 1024, 1024, 2048]) (fun _ => rfl) (check_cut (c1 := [23552, 11264, 13312, 9216]) (c2 := [23552, 11264, 13312, 11264]) (h := [1024, 1024, 1024, 1024]) (fun _ => rfl) h43 (check_cut (c1 := [23040, 11264, 13312, 11264]) (c2 := [24064, 11264, 13312, 11264]) (h := [512, 1024, 1024, 1024]) (fun _ => rfl) h44 (check_cut (c1 := [24064, 10752, 13312, 11264]) (c2 := [24064, 11776, 13312, 11264]) (h := [512, 512, 1024, 1024]) (fun _ => rfl) h45 (check_cut (c1 := [24064, 11776, 12800, 11264]) (c2 := [24064, 11776, 13824, 11264]) (h := [512, 512, 512, 1024]) (fun _ => rfl) (check_cut (c1 := [24064, 11776, 12800, 10752]) (c2 := [24064, 11776, 12800, 11776]) (h := [512, 512, 512, 512]) (fun _ => rfl) h46 (check_cut (c1 := [23808, 11776, 12800, 11776]) (c2 := [24320, 11776, 12800, 11776]) (h := [256, 512, 512, 512]) (fun _ => rfl) h47 h48)) h49)))) h50))) h51)) (check_cut (c1 := [22528, 14336, 10240, 12288]) (c2 := [22528, 14336, 14336, 12288]) (h := [2048, 2048, 2048, 4096]) (fun _ => rfl) (check_cut (c1 := [22528, 14336, 10240, 10240]) (c2 := [22528, 14336, 10240, 14336]) (h := [2048, 2048, 2048, 2048]) (fun _ => rfl) (check_cut (c1 := [21504, 14336, 10240, 10240]) (c2 := [23552, 14336, 10240, 10240]) (h := [1024, 2048, 2048, 2048]) (fun _ => rfl) h52 (check_cut (c1 := [23552, 13312, 10240, 10240]) (c2 := [23552, 15360, 10240, 10240]) (h := [1024, 1024, 2048, 2048]) (fun _ => rfl) (check_cut (c1 := [23552, 13312, 9216, 10240]) (c2 := [23552, 13312, 11264, 10240]) (h := [1024, 1024, 1024, 2048]) (fun _ => rfl) h53 (check_cut (c1 := [23552, 13312, 11264, 9216]) (c2 := [23552, 13312, 11264, 11264]) (h := [1024, 1024, 1024, 1024]) (fun _ => rfl) h54 (check_cut (c1 := [23040, 13312, 11264, 11264]) (c2 := [24064, 13312, 11264, 11264]) (h := [512, 1024, 1024, 1024]) (fun _ => rfl) h55 (check_cut (c1 := [24064, 12800, 11264, 11264]) (c2 := [24064, 13824, 11264, 11264]) (h := [512, 512, 1024, 1024]) (fun _ => rfl) (check_cut (c1 := [24064, 12800, 10752, 11264]) (c2 := [24064, 12800, 11776, 11264]) (h := [512, 512, 512, 1024]) (fun _ => rfl) h56 (check_cut (c1 := [24064, 12800, 11776, 10752]) (c2 := [24064, 12800, 11776, 11776]) (h := [512, 512, 512, 512]) (fun _ => rfl) h57 (check_cut (c1 := [23808, 12800, 11776, 11776]) (c2 := [24320, 12800, 11776, 11776]) (h := [256, 512, 512, 512]) (fun _ => rfl) h58 (check_cut (c1 := [24320, 12544, 11776, 11776]) (c2 := [24320, 13056, 11776, 11776]) (h := [256, 256, 512, 512]) (fun _ => rfl) (check_cut (c1 := [24320, 12544, 11520, 11776]) (c2 := [24320, 12544, 12032, 11776]) (h := [256, 256, 256, 512]) (fun _ => rfl) h59 (check_cut (c1 := [24320, 12544, 12032, 11520]) (c2 := [24320, 12544, 12032, 12032]) (h := [256, 256, 256, 256]) (fun _ => rfl) h60 (check_cut (c1 := [24192, 12544, 12032, 12032]) (c2 := [24448, 12544, 12032, 12032]) (h := [128, 256, 256, 256]) (fun _ => rfl) h61 (check_cut (c1 := [24448, 12416, 12032, 12032]) (c2 := [24448, 12672, 12032, 12032]) (h := [128, 128, 256, 256]) (fun _ => rfl) (check_cut (c1 := [24448, 12416, 11904, 12032]) (c2 := [24448, 12416, 12160, 12032]) (h := [128, 128, 128, 256]) (fun _ => rfl) h62 (check_cut (c1 := [24448, 12416, 12160, 11904]) (c2 := [24448, 12416, 12160, 12160]) (h := [128, 128, 128, 128]) (fun _ => rfl) h63 (check_cut (c1 := [24384, 12416, 12160, 12160]) (c2 := [24512, 12416, 12160, 12160]) (h := [64, 128, 128, 128]) (fun _ => rfl) h64 (check_cut (c1 := [24512, 12352, 12160, 12160]) (c2 := [24512, 12480, 12160, 12160]) (h := [64, 64, 128, 128]) (fun _ => rfl) (check_cut (c1 := [24512, 12352, 12096, 12160]) (c2 := [24512, 12352, 12224, 12160]) (h := [64, 64, 64, 128]) (fun _ => rfl) h65 (check_cut (c1 := [24512, 12352, 12224, 12096]) (c2 := [24512, 12352, 12224, 12224]) (h := [64, 64, 64, 64]) (fun _ => rfl) h66 (check_cut (c1 := [24480, 12352, 12224, 12224]) (c2 := [24544, 12352, 12224, 12224]) (h := [32, 64, 64, 64]) (fun _ => rfl) (check_cut (c1 := [24480, 12320, 12224, 12224]) (c2 := [24480, 12384, 12224, 12224]) (h := [32, 32, 64, 64]) (fun _ => rfl) h67 h68) (check_cut (c1 := [24544, 12320, 12224, 12224]) (c2 := [24544, 12384, 12224, 12224]) (h := [32, 32, 64, 64]) (fun _ => rfl) (check_cut (c1 := [24544, 12320, 12192, 12224]) (c2 := [24544, 12320, 12256, 12224]) (h := [32, 32, 32, 64]) (fun _ => rfl) h69 (check_cut (c1 := [24544, 12320, 12256, 12192]) (c2 := [24544, 12320, 12256, 12256]) (h := [32, 32, 32, 32]) (fun _ => rfl) h70 (check_cut (c1 := [24528, 12320, 12256, 12256]) (c2 := [24560, 12320, 12256, 12256]) (h := [16, 32, 32, 32]) (fun _ => rfl) h71 h72))) h73)))) h74)))) h75)))) h76)))) h77)))) h78)) (check_cut (c1 := [21504, 14336, 10240, 14336]) (c2 := [23552, 14336, 10240, 14336]) (h := [1024, 2048, 2048, 2048]) (fun _ => rfl) h79 (check_cut (c1 := [23552, 13312, 10240, 14336]) (c2 := [23552, 15360, 10240, 14336]) (h := [1024, 1024, 2048, 2048]) (fun _ => rfl) (check_cut (c1 := [23552, 13312, 9216, 14336]) (c2 := [23552, 13312, 11264, 14336]) (h := [1024, 1024, 1024, 2048]) (fun _ => rfl) h80 (check_cut (c1 := [23552, 13312, 11264, 13312]) (c2 := [23552, 13312, 11264, 15360]) (h := [1024, 1024, 1024, 1024]) (fun _ => rfl) (check_cut (c1 := [23040, 13312, 11264, 13312]) (c2 := [24064, 13312, 11264, 13312]) (h := [512, 1024, 1024, 1024]) (fun _ => rfl) h81 h82) h83)) h84))) (check_cut (c1 := [22528, 14336, 14336, 10240]) (c2 := [22528, 14336, 14336, 14336]) (h := [2048, 2048, 2048, 2048]) (fun _ => rfl) (check_cut (c1 := [21504, 14336, 14336, 10240]) (c2 := [23552, 14336, 14336, 10240]) (h := [1024, 2048, 2048, 2048]) (fun _ => rfl) h85 (check_cut (c1 := [23552, 13312, 14336, 10240]) (c2 := [23552, 15360, 14336, 10240]) (h := [1024, 1024, 2048, 2048]) (fun _ => rfl) (check_cut (c1 := [23552, 13312, 13312, 10240]) (c2 := [23552, 13312, 15360, 10240]) (h := [1024, 1024, 1024, 2048]) (fun _ => rfl) (check_cut (c1 := [23552, 13312, 13312, 9216]) (c2 := [23552, 13312, 13312, 11264]) (h := [1024, 1024, 1024, 1024]) (fun _ => rfl) h86 (check_cut (c1 := [23040, 13312, 13312, 11264]) (c2 := [24064, 13312, 13312, 11264]) (h := [512, 1024, 1024, 1024]) (fun _ => rfl) h87 (check_cut (c1 := [24064, 12800, 13312, 11264]) (c2 := [24064, 13824, 13312, 11264]) (h := [512, 512, 1024, 1024]) (fun _ => rfl) (check_cut (c1 := [24064, 12800, 12800, 11264]) (c2 := [24064, 12800, 13824, 11264]) (h := [512, 512, 512, 1024]) (fun _ => rfl) (check_cut (c1 := [24064, 12800, 12800, 10752]) (c2 := [24064, 12800, 12800, 11776]) (h := [512, 512, 512, 512]) (fun _ => rfl) h88 (check_cut (c1 := [23808, 12800, 12800, 11776]) (c2 := [24320, 12800, 12800, 11776]) (h := [256, 512, 512, 512]) (fun _ => rfl) h89 (check_cut (c1 := [24320, 12544, 12800, 11776]) (c2 := [24320, 13056, 12800, 11776]) (h := [256, 256, 512, 512]) (fun _ => rfl) (check_cut (c1 := [24320, 12544, 12544, 11776]) (c2 := [24320, 12544, 13056, 11776]) (h := [256, 256, 256, 512]) (fun _ => rfl) (check_cut (c1 := [24320, 12544, 12544, 11520]) (c2 := [24320, 12544, 12544, 12032]) (h := [256, 256, 256, 256]) (fun _ => rfl) h90 (check_cut (c1 := [24192, 12544, 12544, 12032]) (c2 := [24448, 12544, 12544, 12032]) (h := [128, 256, 256, 256]) (fun _ => rfl) h91 (check_cut (c1 := [24448, 12416, 12544, 12032]) (c2 := [24448, 12672, 12544, 12032]) (h := [128, 128, 256, 256]) (fun _ => rfl) (check_cut (c1 := [24448, 12416, 12416, 12032]) (c2 := [24448, 12416, 12672, 12032]) (h := [128, 128, 128, 256]) (fun _ => rfl) (check_cut (c1 := [24448, 12416, 12416, 11904]) (c2 := [24448, 12416, 12416, 12160]) (h := [128, 128, 128, 128]) (fun _ => rfl) h92 (check_cut (c1 := [24384, 12416, 12416, 12160]) (c2 := [24512, 12416, 12416, 12160]) (h := [64, 128, 128, 128]) (fun _ => rfl) h93 (check_cut (c1 := [24512, 12352, 12416, 12160]) (c2 := [24512, 12480, 12416, 12160]) (h := [64, 64, 128, 128]) (fun _ => rfl) (check_cut (c1 := [24512, 12352, 12352, 12160]) (c2 := [24512, 12352, 12480, 12160]) (h := [64, 64, 64, 128]) (fun _ => rfl) (check_cut (c1 := [24512, 12352, 12352, 12096]) (c2 := [24512, 12352, 12352, 12224]) (h := [64, 64, 64, 64]) (fun _ => rfl) h94 (check_cut (c1 := [24480, 12352, 12352, 12224]) (c2 := [24544, 12352, 12352, 12224]) (h := [32, 64, 64, 64]) (fun _ => rfl) h95 (check_cut (c1 := [24544, 12320, 12352, 12224]) (c2 := [24544, 12384, 12352, 12224]) (h := [32, 32, 64, 64]) (fun _ => rfl) (check_cut (c1 := [24544, 12320, 12320, 12224]) (c2 := [24544, 12320, 12384, 12224]) (h := [32, 32, 32, 64]) (fun _ => rfl) h96 h97) h98))) h99) h100))) h101) h102))) h103) h104))) h105) h106))) h107) h108)) (check_cut (c1 := [21504, 14336, 14336, 14336]) (c2 := [23552, 14336, 14336, 14336]) (h := [1024, 2048, 2048, 2048]) (fun _ => rfl) h109 (check_cut (c1 := [23552, 13312, 14336, 14336]) (c2 := [23552, 15360, 14336, 14336]) (h := [1024, 1024, 2048, 2048]) (fun _ => rfl) (check_cut (c1 := [23552, 13312, 13312, 14336]) (c2 := [23552, 13312, 15360, 14336]) (h := [1024, 1024, 1024, 2048]) (fun _ => rfl) (check_cut (c1 := [23552, 13312, 13312, 13312]) (c2 := [23552, 13312, 13312, 15360]) (h := [1024, 1024, 1024, 1024]) (fun _ => rfl) (check_cut (c1 := [23040, 13312, 13312, 13312]) (c2 := [24064, 13312, 13312, 13312]) (h := [512, 1024, 1024, 1024]) (fun _ => rfl) h110 (check_cut (c1 := [24064, 12800, 13312, 13312]) (c2 := [24064, 13824, 13312, 13312]) (h := [512, 512, 1024, 1024]) (fun _ => rfl) (check_cut (c1 := [24064, 12800, 12800, 13312]) (c2 := [24064, 12800, 13824, 13312]) (h := [512, 512, 512, 1024]) (fun _ => rfl) (check_cut (c1 := [24064, 12800, 12800, 12800]) (c2 := [24064, 12800, 12800, 13824]) (h := [512, 512, 512, 512]) (fun _ => rfl) (check_cut (c1 := [23808, 12800, 12800, 12800]) (c2 := [24320, 12800, 12800, 12800]) (h := [256, 512, 512, 512]) (fun _ => rfl) h111 (check_cut (c1 := [24320, 12544, 12800, 12800]) (c2 := [24320, 13056, 12800, 12800]) (h := [256, 256, 512, 512]) (fun _ => rfl) (check_cut (c1 := [24320, 12544, 12544, 12800]) (c2 := [24320, 12544, 13056, 12800]) (h := [256, 256, 256, 512]) (fun _ => rfl) (check_cut (c1 := [24320, 12544, 12544, 12544]) (c2 := [24320, 12544, 12544, 13056]) (h := [256, 256, 256, 256]) (fun _ => rfl) (check_cut (c1 := [24192, 12544, 12544, 12544]) (c2 := [24448, 12544, 12544, 12544]) (h := [128, 256, 256, 256]) (fun _ => rfl) h112 (check_cut (c1 := [24448, 12416, 12544, 12544]) (c2 := [24448, 12672, 12544, 12544]) (h := [128, 128, 256, 256]) (fun _ => rfl) (check_cut (c1 := [24448, 12416, 12416, 12544]) (c2 := [24448, 12416, 12672, 12544]) (h := [128, 128, 128, 256]) (fun _ => rfl) (check_cut (c1 := [24448, 12416, 12416, 12416]) (c2 := [24448, 12416, 12416, 12672]) (h := [128, 128, 128, 128]) (fun _ => rfl) (check_cut (c1 := [24384, 12416, 12416, 12416]) (c2 := [24512, 12416, 12416, 12416]) (h := [64, 128, 128, 128]) (fun _ => rfl) h113 (check_cut (c1 := [24512, 12352, 12416, 12416]) (c2 := [24512, 12480, 12416, 12416]) (h := [64, 64, 128, 128]) (fun _ => rfl) (check_cut (c1 := [24512, 12352, 12352, 12416]) (c2 := [24512, 12352, 12480, 12416]) (h := [64, 64, 64, 128]) (fun _ => rfl) (check_cut (c1 := [24512, 12352, 12352, 12352]) (c2 := [24512, 12352, 12352, 12480]) (h := [64, 64, 64, 64]) (fun _ => rfl) (check_cut (c1 := [24480, 12352, 12352, 12352]) (c2 := [24544, 12352, 12352, 12352]) (h := [32, 64, 64, 64]) (fun _ => rfl) h114 h115) h116) h117) h118)) h119) h120) h121)) h122) h123) h124)) h125) h126) h127)) h128) h129) h130))))))))) (check_cut (c1 := [28672, 4096, 8192, 8192]) (c2 := [28672, 12288, 8192, 8192]) (h := [4096, 4096, 8192, 8192]) (fun _ => rfl) (check_cut (c1 := [28672, 4096, 4096, 8192]) (c2 := [28672, 4096, 12288, 8192]) (h := [4096, 4096, 4096, 8192]) (fun _ => rfl) (check_cut (c1 := [28672, 4096, 4096, 4096]) (c2 := [28672, 4096, 4096, 12288]) (h := [4096, 4096, 4096, 4096]) (fun _ => rfl) h131 h132) h133) (check_cut (c1 := [28672, 12288, 4096, 8192]) (c2 := [28672, 12288, 12288, 8192]) (h := [4096, 4096, 4096, 8192]) (fun _ => rfl) (check_cut (c1 := [28672, 12288, 4096, 4096]) (c2 := [28672, 12288, 4096, 12288]) (h := [4096, 4096, 4096, 4096]) (fun _ => rfl) (check_cut (c1 := [26624, 12288, 4096, 4096]) (c2 := [30720, 12288, 4096, 4096]) (h := [2048, 4096, 4096, 4096]) (fun _ => rfl) h134 h135) h136) (check_cut (c1 := [28672, 12288, 12288, 4096]) (c2 := [28672, 12288, 12288, 12288]) (h := [4096, 4096, 4096, 4096]) (fun _ => rfl) (check_cut (c1 := [26624, 12288, 12288, 4096]) (c2 := [30720, 12288, 12288, 4096]) (h := [2048, 4096, 4096, 4096]) (fun _ => rfl) (check_cut (c1 := [26624, 10240, 12288, 4096]) (c2 := [26624, 14336, 12288, 4096]) (h := [2048, 2048, 4096, 4096]) (fun _ => rfl) h137 h138) h139) (check_cut (c1 := [26624, 12288, 12288, 12288]) (c2 := [30720, 12288, 12288, 12288]) (h := [2048, 4096, 4096, 4096]) (fun _ => rfl) (check_cut (c1 := [26624, 10240, 12288, 12288]) (c2 := [26624, 14336, 12288, 12288]) (h := [2048, 2048, 4096, 4096]) (fun _ => rfl) (check_cut (c1 := [26624, 10240, 10240, 12288]) (c2 := [26624, 10240, 14336, 12288]) (h := [2048, 2048, 2048, 4096]) (fun _ => rfl) (check_cut (c1 := [26624, 10240, 10240, 10240]) (c2 := [26624, 10240, 10240, 14336]) (h := [2048, 2048, 2048, 2048]) (fun _ => rfl) (check_cut (c1 := [25600, 10240, 10240, 10240]) (c2 := [27648, 10240, 10240, 10240]) (h := [1024, 2048, 2048, 2048]) (fun _ => rfl) (check_cut (c1 := [25600, 9216, 10240, 10240]) (c2 := [25600, 11264, 10240, 10240]) (h := [1024, 1024, 2048, 2048]) (fun _ => rfl) h140 (check_cut (c1 := [25600, 11264, 9216, 10240]) (c2 := [25600, 11264, 11264, 10240]) (h := [1024, 1024, 1024, 2048]) (fun _ => rfl) h141 (check_cut (c1 := [25600, 11264, 11264, 9216]) (c2 := [25600, 11264, 11264, 11264]) (h := [1024, 1024, 1024, 1024]) (fun _ => rfl) h142 (check_cut (c1 := [25088, 11264, 11264, 11264]) (c2 := [26112, 11264, 11264, 11264]) (h := [512, 1024, 1024, 1024]) (fun _ => rfl) (check_cut (c1 := [25088, 10752, 11264, 11264]) (c2 := [25088, 11776, 11264, 11264]) (h := [512, 512, 1024, 1024]) (fun _ => rfl) h143 (check_cut (c1 := [25088, 11776, 10752, 11264]) (c2 := [25088, 11776, 11776, 11264]) (h := [512, 512, 512, 1024]) (fun _ => rfl) h144 (check_cut (c1 := [25088, 11776, 11776, 10752]) (c2 := [25088, 11776, 11776, 11776]) (h := [512, 512, 512, 512]) (fun _ => rfl) h145 (check_cut (c1 := [24832, 11776, 11776, 11776]) (c2 := [25344, 11776, 11776, 11776]) (h := [256, 512, 512, 512]) (fun _ => rfl) (check_cut (c1 := [24832, 11520, 11776, 11776]) (c2 := [24832, 12032, 11776, 11776]) (h := [256, 256, 512, 512]) (fun _ => rfl) h146 (check_cut (c1 := [24832, 12032, 11520, 11776]) (c2 := [24832, 12032, 12032, 11776]) (h := [256, 256, 256, 512]) (fun _ => rfl) h147 (check_cut (c1 := [24832, 12032, 12032, 11520]) (c2 := [24832, 12032, 12032, 12032]) (h := [256, 256, 256, 256]) (fun _ => rfl) h148 (check_cut (c1 := [24704, 12032, 12032, 12032]) (c2 := [24960, 12032, 12032, 12032]) (h := [128, 256, 256, 256]) (fun _ => rfl) (check_cut (c1 := [24704, 11904, 12032, 12032]) (c2 := [24704, 12160, 12032, 12032]) (h := [128, 128, 256, 256]) (fun _ => rfl) h149 (check_cut (c1 := [24704, 12160, 11904, 12032]) (c2 := [24704, 12160, 12160, 12032]) (h := [128, 128, 128, 256]) (fun _ => rfl) h150 (check_cut (c1 := [24704, 12160, 12160, 11904]) (c2 := [24704, 12160, 12160, 12160]) (h := [128, 128, 128, 128]) (fun _ => rfl) h151 h152))) h153)))) h154)))) h155)))) h156) h157) (check_cut (c1 := [26624, 10240, 14336, 10240]) (c2 := [26624, 10240, 14336, 14336]) (h := [2048, 2048, 2048, 2048]) (fun _ => rfl) h158 h159)) (check_cut (c1 := [26624, 14336, 10240, 12288]) (c2 := [26624, 14336, 14336, 12288]) (h := [2048, 2048, 2048, 4096]) (fun _ => rfl) (check_cut (c1 := [26624, 14336, 10240, 10240]) (c2 := [26624, 14336, 10240, 14336]) (h := [2048, 2048, 2048, 2048]) (fun _ => rfl) (check_cut (c1 := [25600, 14336, 10240, 10240]) (c2 := [27648, 14336, 10240, 10240]) (h := [1024, 2048, 2048, 2048]) (fun _ => rfl) (check_cut (c1 := [25600, 13312, 10240, 10240]) (c2 := [25600, 15360, 10240, 10240]) (h := [1024, 1024, 2048, 2048]) (fun _ => rfl) (check_cut (c1 := [25600, 13312, 9216, 10240]) (c2 := [25600, 13312, 11264, 10240]) (h := [1024, 1024, 1024, 2048]) (fun _ => rfl) h160 (check_cut (c1 := [25600, 13312, 11264, 9216]) (c2 := [25600, 13312, 11264, 11264]) (h := [1024, 1024, 1024, 1024]) (fun _ => rfl) h161 (check_cut (c1 := [25088, 13312, 11264, 11264]) (c2 := [26112, 13312, 11264, 11264]) (h := [512, 1024, 1024, 1024]) (fun _ => rfl) (check_cut (c1 := [25088, 12800, 11264, 11264]) (c2 := [25088, 13824, 11264, 11264]) (h := [512, 512, 1024, 1024]) (fun _ => rfl) (check_cut (c1 := [25088, 12800, 10752, 11264]) (c2 := [25088, 12800, 11776, 11264]) (h := [512, 512, 512, 1024]) (fun _ => rfl) h162 (check_cut (c1 := [25088, 12800, 11776, 10752]) (c2 := [25088, 12800, 11776, 11776]) (h := [512, 512, 512, 512]) (fun _ => rfl) h163 (check_cut (c1 := [24832, 12800, 11776, 11776]) (c2 := [25344, 12800, 11776, 11776]) (h := [256, 512, 512, 512]) (fun _ => rfl) (check_cut (c1 := [24832, 12544, 11776, 11776]) (c2 := [24832, 13056, 11776, 11776]) (h := [256, 256, 512, 512]) (fun _ => rfl) (check_cut (c1 := [24832, 12544, 11520, 11776]) (c2 := [24832, 12544, 12032, 11776]) (h := [256, 256, 256, 512]) (fun _ => rfl) h164 (check_cut (c1 := [24832, 12544, 12032, 11520]) (c2 := [24832, 12544, 12032, 12032]) (h := [256, 256, 256, 256]) (fun _ => rfl) h165 (check_cut (c1 := [24704, 12544, 12032, 12032]) (c2 := [24960, 12544, 12032, 12032]) (h := [128, 256, 256, 256]) (fun _ => rfl) (check_cut (c1 := [24704, 12416, 12032, 12032]) (c2 := [24704, 12672, 12032, 12032]) (h := [128, 128, 256, 256]) (fun _ => rfl) (check_cut (c1 := [24704, 12416, 11904, 12032]) (c2 := [24704, 12416, 12160, 12032]) (h := [128, 128, 128, 256]) (fun _ => rfl) h166 (check_cut (c1 := [24704, 12416, 12160, 11904]) (c2 := [24704, 12416, 12160, 12160]) (h := [128, 128, 128, 128]) (fun _ => rfl) h167 h168)) h169) h170))) h171) h172))) h173) h174))) h175) h176) h177) (check_cut (c1 := [26624, 14336, 14336, 10240]) (c2 := [26624, 14336, 14336, 14336]) (h := [2048, 2048, 2048, 2048]) (fun _ => rfl) (check_cut (c1 := [25600, 14336, 14336, 10240]) (c2 := [27648, 14336, 14336, 10240]) (h := [1024, 2048, 2048, 2048]) (fun _ => rfl) (check_cut (c1 := [25600, 13312, 14336, 10240]) (c2 := [25600, 15360, 14336, 10240]) (h := [1024, 1024, 2048, 2048]) (fun _ => rfl) (check_cut (c1 := [25600, 13312, 13312, 10240]) (c2 := [25600, 13312, 15360, 10240]) (h := [1024, 1024, 1024, 2048]) (fun _ => rfl) (check_cut (c1 := [25600, 13312, 13312, 9216]) (c2 := [25600, 13312, 13312, 11264]) (h := [1024, 1024, 1024, 1024]) (fun _ => rfl) h178 (check_cut (c1 := [25088, 13312, 13312, 11264]) (c2 := [26112, 13312, 13312, 11264]) (h := [512, 1024, 1024, 1024]) (fun _ => rfl) (check_cut (c1 := [25088, 12800, 13312, 11264]) (c2 := [25088, 13824, 13312, 11264]) (h := [512, 512, 1024, 1024]) (fun _ => rfl) (check_cut (c1 := [25088, 12800, 12800, 11264]) (c2 := [25088, 12800, 13824, 11264]) (h := [512, 512, 512, 1024]) (fun _ => rfl) (check_cut (c1 := [25088, 12800, 12800, 10752]) (c2 := [25088, 12800, 12800, 11776]) (h := [512, 512, 512, 512]) (fun _ => rfl) h179 (check_cut (c1 := [24832, 12800, 12800, 11776]) (c2 := [25344, 12800, 12800, 11776]) (h := [256, 512, 512, 512]) (fun _ => rfl) (check_cut (c1 := [24832, 12544, 12800, 11776]) (c2 := [24832, 13056, 12800, 11776]) (h := [256, 256, 512, 512]) (fun _ => rfl) (check_cut (c1 := [24832, 12544, 12544, 11776]) (c2 := [24832, 12544, 13056, 11776]) (h := [256, 256, 256, 512]) (fun _ => rfl) (check_cut (c1 := [24832, 12544, 12544, 11520]) (c2 := [24832, 12544, 12544, 12032]) (h := [256, 256, 256, 256]) (fun _ => rfl) h180 (check_cut (c1 := [24704, 12544, 12544, 12032]) (c2 := [24960, 12544, 12544, 12032]) (h := [128, 256, 256, 256]) (fun _ => rfl) (check_cut (c1 := [24704, 12416, 12544, 12032]) (c2 := [24704, 12672, 12544, 12032]) (h := [128, 128, 256, 256]) (fun _ => rfl) (check_cut (c1 := [24704, 12416, 12416, 12032]) (c2 := [24704, 12416, 12672, 12032]) (h := [128, 128, 128, 256]) (fun _ => rfl) (check_cut (c1 := [24704, 12416, 12416, 11904]) (c2 := [24704, 12416, 12416, 12160]) (h := [128, 128, 128, 128]) (fun _ => rfl) h181 (check_cut (c1 := [24640, 12416, 12416, 12160]) (c2 := [24768, 12416, 12416, 12160]) (h := [64, 128, 128, 128]) (fun _ => rfl) h182 h183)) h184) h185) h186)) h187) h188) h189)) h190) h191) h192)) h193) h194) h195) (check_cut (c1 := [25600, 14336, 14336, 14336]) (c2 := [27648, 14336, 14336, 14336]) (h := [1024, 2048, 2048, 2048]) (fun _ => rfl) (check_cut (c1 := [25600, 13312, 14336, 14336]) (c2 := [25600, 15360, 14336, 14336]) (h := [1024, 1024, 2048, 2048]) (fun _ => rfl) (check_cut (c1 := [25600, 13312, 13312, 14336]) (c2 := [25600, 13312, 15360, 14336]) (h := [1024, 1024, 1024, 2048]) (fun _ => rfl) (check_cut (c1 := [25600, 13312, 13312, 13312]) (c2 := [25600, 13312, 13312, 15360]) (h := [1024, 1024, 1024, 1024]) (fun _ => rfl) (check_cut (c1 := [25088, 13312, 13312, 13312]) (c2 := [26112, 13312, 13312, 13312]) (h := [512, 1024, 1024, 1024]) (fun _ => rfl) (check_cut (c1 := [25088, 12800, 13312, 13312]) (c2 := [25088, 13824, 13312, 13312]) (h := [512, 512, 1024, 1024]) (fun _ => rfl) (check_cut (c1 := [25088, 12800, 12800, 13312]) (c2 := [25088, 12800, 13824, 13312]) (h := [512, 512, 512, 1024]) (fun _ => rfl) (check_cut (c1 := [25088, 12800, 12800, 12800]) (c2 := [25088, 12800, 12800, 13824]) (h := [512, 512, 512, 512]) (fun _ => rfl) (check_cut (c1 := [24832, 12800, 12800, 12800]) (c2 := [25344, 12800, 12800, 12800]) (h := [256, 512, 512, 512]) (fun _ => rfl) (check_cut (c1 := [24832, 12544, 12800, 12800]) (c2 := [24832, 13056, 12800, 12800]) (h := [256, 256, 512, 512]) (fun _ => rfl) (check_cut (c1 := [24832, 12544, 12544, 12800]) (c2 := [24832, 12544, 13056, 12800]) (h := [256, 256, 256, 512]) (fun _ => rfl) (check_cut (c1 := [24832, 12544, 12544, 12544]) (c2 := [24832, 12544, 12544, 13056]) (h := [256, 256, 256, 256]) (fun _ => rfl) (check_cut (c1 := [24704, 12544, 12544, 12544]) (c2 := [24960, 12544, 12544, 12544]) (h := [128, 256, 256, 256]) (fun _ => rfl) (check_cut (c1 := [24704, 12416, 12544, 12544]) (c2 := [24704, 12672, 12544, 12544]) (h := [128, 128, 256, 256]) (fun _ => rfl) (check_cut (c1 := [24704, 12416, 12416, 12544]) (c2 := [24704, 12416, 12672, 12544]) (h := [128, 128, 128, 256]) (fun _ => rfl) (check_cut (c1 := [24704, 12416, 12416, 12416]) (c2 := [24704, 12416, 12416, 12672]) (h := [128, 128, 128, 128]) (fun _ => rfl) h196 h197) h198) h199) h200) h201) h202) h203) h204) h205) h206) h207) h208) h209) h210) h211) h212)))) h213))))) h214) (check_cut (c1 := [24576, 8192, 24576, 8192]) (c2 := [24576, 8192, 24576, 24576]) (h := [8192, 8192, 8192, 8192]) (fun _ => rfl) h215 h216)) (check_cut (c1 := [24576, 24576, 8192, 16384]) (c2 := [24576, 24576, 24576, 16384]) (h := [8192, 8192, 8192, 16384]) (fun _ => rfl) (check_cut (c1 := [24576, 24576, 8192, 8192]) (c2 := [24576, 24576, 8192, 24576]) (h := [8192, 8192, 8192, 8192]) (fun _ => rfl) (check_cut (c1 := [20480, 24576, 8192, 8192]) (c2 := [28672, 24576, 8192, 8192]) (h := [4096, 8192, 8192, 8192]) (fun _ => rfl) (check_cut (c1 := [20480, 20480, 8192, 8192]) (c2 := [20480, 28672, 8192, 8192]) (h := [4096, 4096, 8192, 8192]) (fun _ => rfl) (check_cut (c1 := [20480, 20480, 4096, 8192]) (c2 := [20480, 20480, 12288, 8192]) (h := [4096, 4096, 4096, 8192]) (fun _ => rfl) h217 h218) h219) (check_cut (c1 := [28672, 20480, 8192, 8192]) (c2 := [28672, 28672, 8192, 8192]) (h := [4096, 4096, 8192, 8192]) (fun _ => rfl) (check_cut (c1 := [28672, 20480, 4096, 8192]) (c2 := [28672, 20480, 12288, 8192]) (h := [4096, 4096, 4096, 8192]) (fun _ => rfl) h220 (check_cut (c1 := [28672, 20480, 12288, 4096]) (c2 := [28672, 20480, 12288, 12288]) (h := [4096, 4096, 4096, 4096]) (fun _ => rfl) h221 (check_cut (c1 := [26624, 20480, 12288, 12288]) (c2 := [30720, 20480, 12288, 12288]) (h := [2048, 4096, 4096, 4096]) (fun _ => rfl) (check_cut (c1 := [26624, 18432, 12288, 12288]) (c2 := [26624, 22528, 12288, 12288]) (h := [2048, 2048, 4096, 4096]) (fun _ => rfl) h222 h223) h224))) h225)) h226) (check_cut (c1 := [24576, 24576, 24576, 8192]) (c2 := [24576, 24576, 24576, 24576]) (h := [8192, 8192, 8192, 8192]) (fun _ => rfl) (check_cut (c1 := [20480, 24576, 24576, 8192]) (c2 := [28672, 24576, 24576, 8192]) (h := [4096, 8192, 8192, 8192]) (fun _ => rfl) (check_cut (c1 := [20480, 20480, 24576, 8192]) (c2 := [20480, 28672, 24576, 8192]) (h := [4096, 4096, 8192, 8192]) (fun _ => rfl) h227 h228) (check_cut (c1 := [28672, 20480, 24576, 8192]) (c2 := [28672, 28672, 24576, 8192]) (h := [4096, 4096, 8192, 8192]) (fun _ => rfl) (check_cut (c1 := [28672, 20480, 20480, 8192]) (c2 := [28672, 20480, 28672, 8192]) (h := [4096, 4096, 4096, 8192]) (fun _ => rfl) (check_cut (c1 := [28672, 20480, 20480, 4096]) (c2 := [28672, 20480, 20480, 12288]) (h := [4096, 4096, 4096, 4096]) (fun _ => rfl) h229 (check_cut (c1 := [26624, 20480, 20480, 12288]) (c2 := [30720, 20480, 20480, 12288]) (h := [2048, 4096, 4096, 4096]) (fun _ => rfl) h230 h231)) h232) h233)) (check_cut (c1 := [20480, 24576, 24576, 24576]) (c2 := [28672, 24576, 24576, 24576]) (h := [4096, 8192, 8192, 8192]) (fun _ => rfl) (check_cut (c1 := [20480, 20480, 24576, 24576]) (c2 := [20480, 28672, 24576, 24576]) (h := [4096, 4096, 8192, 8192]) (fun _ => rfl) h234 h235) (check_cut (c1 := [28672, 20480, 24576, 24576]) (c2 := [28672, 28672, 24576, 24576]) (h := [4096, 4096, 8192, 8192]) (fun _ => rfl) (check_cut (c1 := [28672, 20480, 20480, 24576]) (c2 := [28672, 20480, 28672, 24576]) (h := [4096, 4096, 4096, 8192]) (fun _ => rfl) (check_cut (c1 := [28672, 20480, 20480, 20480]) (c2 := [28672, 20480, 20480, 28672]) (h := [4096, 4096, 4096, 4096]) (fun _ => rfl) h236 h237) h238) (check_cut (c1 := [28672, 28672, 20480, 24576]) (c2 := [28672, 28672, 28672, 24576]) (h := [4096, 4096, 4096, 8192]) (fun _ => rfl) h239 h240))))))) h241) h242) h243) (check_cut (c1 := [49152, 16384, 32768, 32768]) (c2 := [49152, 49152, 32768, 32768]) (h := [16384, 16384, 32768, 32768]) (fun _ => rfl) (check_cut (c1 := [49152, 16384, 16384, 32768]) (c2 := [49152, 16384, 49152, 32768]) (h := [16384, 16384, 16384, 32768]) (fun _ => rfl) (check_cut (c1 := [49152, 16384, 16384, 16384]) (c2 := [49152, 16384, 16384, 49152]) (h := [16384, 16384, 16384, 16384]) (fun _ => rfl) (check_cut (c1 := [40960, 16384, 16384, 16384]) (c2 := [57344, 16384, 16384, 16384]) (h := [8192, 16384, 16384, 16384]) (fun _ => rfl) (check_cut (c1 := [40960, 8192, 16384, 16384]) (c2 := [40960, 24576, 16384, 16384]) (h := [8192, 8192, 16384, 16384]) (fun _ => rfl) (check_cut (c1 := [40960, 8192, 8192, 16384]) (c2 := [40960, 8192, 24576, 16384]) (h := [8192, 8192, 8192, 16384]) (fun _ => rfl) (check_cut (c1 := [40960, 8192, 8192, 8192]) (c2 := [40960, 8192, 8192, 24576]) (h := [8192, 8192, 8192, 8192]) (fun _ => rfl) (check_cut (c1 := [36864, 8192, 8192, 8192]) (c2 := [45056, 8192, 8192, 8192]) (h := [4096, 8192, 8192, 8192]) (fun _ => rfl) (check_cut (c1 := [36864, 4096, 8192, 8192]) (c2 := [36864, 12288, 8192, 8192]) (h := [4096, 4096, 8192, 8192]) (fun _ => rfl) (check_cut (c1 := [36864, 4096, 4096, 8192]) (c2 := [36864, 4096, 12288, 8192]) (h := [4096, 4096, 4096, 8192]) (fun _ => rfl) h244 h245) (check_cut (c1 := [36864, 12288, 4096, 8192]) (c2 := [36864, 12288, 12288, 8192]) (h := [4096, 4096, 4096, 8192]) (fun _ => rfl) h246 (check_cut (c1 := [36864, 12288, 12288, 4096]) (c2 := [36864, 12288, 12288, 12288]) (h := [4096, 4096, 4096, 4096]) (fun _ => rfl) h247 h248))) (check_cut (c1 := [45056, 4096, 8192, 8192]) (c2 := [45056, 12288, 8192, 8192]) (h := [4096, 4096, 8192, 8192]) (fun _ => rfl) (check_cut (c1 := [45056, 4096, 4096, 8192]) (c2 := [45056, 4096, 12288, 8192]) (h := [4096, 4096, 4096, 8192]) (fun _ => rfl) (check_cut (c1 := [45056, 4096, 4096, 4096]) (c2 := [45056, 4096, 4096, 12288]) (h := [4096, 4096, 4096, 4096]) (fun _ => rfl) (check_cut (c1 := [43008, 4096, 4096, 4096]) (c2 := [47104, 4096, 4096, 4096]) (h := [2048, 4096, 4096, 4096]) (fun _ => rfl) h249 h250) h251) h252) (check_cut (c1 := [45056, 12288, 4096, 8192]) (c2 := [45056, 12288, 12288, 8192]) (h := [4096, 4096, 4096, 8192]) (fun _ => rfl) (check_cut (c1 := [45056, 12288, 4096, 4096]) (c2 := [45056, 12288, 4096, 12288]) (h := [4096, 4096, 4096, 4096]) (fun _ => rfl) (check_cut (c1 := [43008, 12288, 4096, 4096]) (c2 := [47104, 12288, 4096, 4096]) (h := [2048, 4096, 4096, 4096]) (fun _ => rfl) h253 (check_cut (c1 := [47104, 10240, 4096, 4096]) (c2 := [47104, 14336, 4096, 4096]) (h := [2048, 2048, 4096, 4096]) (fun _ => rfl) h254 h255)) h256) h257))) h258) h259) (check_cut (c1 := [40960, 24576, 8192, 16384]) (c2 := [40960, 24576, 24576, 16384]) (h := [8192, 8192, 8192, 16384]) (fun _ => rfl) (check_cut (c1 := [40960, 24576, 8192, 8192]) (c2 := [40960, 24576, 8192, 24576]) (h := [8192, 8192, 8192, 8192]) (fun _ => rfl) (check_cut (c1 := [36864, 24576, 8192, 8192]) (c2 := [45056, 24576, 8192, 8192]) (h := [4096, 8192, 8192, 8192]) (fun _ => rfl) (check_cut (c1 := [36864, 20480, 8192, 8192]) (c2 := [36864, 28672, 8192, 8192]) (h := [4096, 4096, 8192, 8192]) (fun _ => rfl) h260 h261) (check_cut (c1 := [45056, 20480, 8192, 8192]) (c2 := [45056, 28672, 8192, 8192]) (h := [4096, 4096, 8192, 8192]) (fun _ => rfl) h262 h263)) h264) (check_cut (c1 := [40960, 24576, 24576, 8192]) (c2 := [40960, 24576, 24576, 24576]) (h := [8192, 8192, 8192, 8192]) (fun _ => rfl) (check_cut (c1 := [36864, 24576, 24576, 8192]) (c2 := [45056, 24576, 24576, 8192]) (h := [4096, 8192, 8192, 8192]) (fun _ => rfl) (check_cut (c1 := [36864, 20480, 24576, 8192]) (c2 := [36864, 28672, 24576, 8192]) (h := [4096, 4096, 8192, 8192]) (fun _ => rfl) h265 h266) h267) (check_cut (c1 := [36864, 24576, 24576, 24576]) (c2 := [45056, 24576, 24576, 24576]) (h := [4096, 8192, 8192, 8192]) (fun _ => rfl) (check_cut (c1 := [36864, 20480, 24576, 24576]) (c2 := [36864, 28672, 24576, 24576]) (h := [4096, 4096, 8192, 8192]) (fun _ => rfl) h268 (check_cut (c1 := [36864, 28672, 20480, 24576]) (c2 := [36864, 28672, 28672, 24576]) (h := [4096, 4096, 4096, 8192]) (fun _ => rfl) h269 h270)) h271)))) (check_cut (c1 := [57344, 8192, 16384, 16384]) (c2 := [57344, 24576, 16384, 16384]) (h := [8192, 8192, 16384, 16384]) (fun _ => rfl) (check_cut (c1 := [57344, 8192, 8192, 16384]) (c2 := [57344, 8192, 24576, 16384]) (h := [8192, 8192, 8192, 16384]) (fun _ => rfl) (check_cut (c1 := [57344, 8192, 8192, 8192]) (c2 := [57344, 8192, 8192, 24576]) (h := [8192, 8192, 8192, 8192]) (fun _ => rfl) (check_cut (c1 := [53248, 8192, 8192, 8192]) (c2 := [61440, 8192, 8192, 8192]) (h := [4096, 8192, 8192, 8192]) (fun _ => rfl) (check_cut (c1 := [53248, 4096, 8192, 8192]) (c2 := [53248, 12288, 8192, 8192]) (h := [4096, 4096, 8192, 8192]) (fun _ => rfl) (check_cut (c1 := [53248, 4096, 4096, 8192]) (c2 := [53248, 4096, 12288, 8192]) (h := [4096, 4096, 4096, 8192]) (fun _ => rfl) (check_cut (c1 := [53248, 4096, 4096, 4096]) (c2 := [53248, 4096, 4096, 12288]) (h := [4096, 4096, 4096, 4096]) (fun _ => rfl) (check_cut (c1 := [51200, 4096, 4096, 4096]) (c2 := [55296, 4096, 4096, 4096]) (h := [2048, 4096, 4096, 4096]) (fun _ => rfl) h272 h273) h274) h275) (check_cut (c1 := [53248, 12288, 4096, 8192]) (c2 := [53248, 12288, 12288, 8192]) (h := [4096, 4096, 4096, 8192]) (fun _ => rfl) (check_cut (c1 := [53248, 12288, 4096, 4096]) (c2 := [53248, 12288, 4096, 12288]) (h := [4096, 4096, 4096, 4096]) (fun _ => rfl) (check_cut (c1 := [51200, 12288, 4096, 4096]) (c2 := [55296, 12288, 4096, 4096]) (h := [2048, 4096, 4096, 4096]) (fun _ => rfl) (check_cut (c1 := [51200, 10240, 4096, 4096]) (c2 := [51200, 14336, 4096, 4096]) (h := [2048, 2048, 4096, 4096]) (fun _ => rfl) (check_cut (c1 := [51200, 10240, 2048, 4096]) (c2 := [51200, 10240, 6144, 4096]) (h := [2048, 2048, 2048, 4096]) (fun _ => rfl) (check_cut (c1 := [51200, 10240, 2048, 2048]) (c2 := [51200, 10240, 2048, 6144]) (h := [2048, 2048, 2048, 2048]) (fun _ => rfl) (check_cut (c1 := [50176, 10240, 2048, 2048]) (c2 := [52224, 10240, 2048, 2048]) (h := [1024, 2048, 2048, 2048]) (fun _ => rfl) h276 (check_cut (c1 := [52224, 9216, 2048, 2048]) (c2 := [52224, 11264, 2048, 2048]) (h := [1024, 1024, 2048, 2048]) (fun _ => rfl) h277 (check_cut (c1 := [52224, 11264, 1024, 2048]) (c2 := [52224, 11264, 3072, 2048]) (h := [1024, 1024, 1024, 2048]) (fun _ => rfl) (check_cut (c1 := [52224, 11264, 1024, 1024]) (c2 := [52224, 11264, 1024, 3072]) (h := [1024, 1024, 1024, 1024]) (fun _ => rfl) (check_cut (c1 := [51712, 11264, 1024, 1024]) (c2 := [52736, 11264, 1024, 1024]) (h := [512, 1024, 1024, 1024]) (fun _ => rfl) h278 (check_cut (c1 := [52736, 10752, 1024, 1024]) (c2 := [52736, 11776, 1024, 1024]) (h := [512, 512, 1024, 1024]) (fun _ => rfl) h279 (check_cut (c1 := [52736, 11776, 512, 1024]) (c2 := [52736, 11776, 1536, 1024]) (h := [512, 512, 512, 1024]) (fun _ => rfl) (check_cut (c1 := [52736, 11776, 512, 512]) (c2 := [52736, 11776, 512, 1536]) (h := [512, 512, 512, 512]) (fun _ => rfl) (check_cut (c1 := [52480, 11776, 512, 512]) (c2 := [52992, 11776, 512, 512]) (h := [256, 512, 512, 512]) (fun _ => rfl) h280 (check_cut (c1 := [52992, 11520, 512, 512]) (c2 := [52992, 12032, 512, 512]) (h := [256, 256, 512, 512]) (fun _ => rfl) h281 (check_cut (c1 := [52992, 12032, 256, 512]) (c2 := [52992, 12032, 768, 512]) (h := [256, 256, 256, 512]) (fun _ => rfl) (check_cut (c1 := [52992, 12032, 256, 256]) (c2 := [52992, 12032, 256, 768]) (h := [256, 256, 256, 256]) (fun _ => rfl) (check_cut (c1 := [52864, 12032, 256, 256]) (c2 := [53120, 12032, 256, 256]) (h := [128, 256, 256, 256]) (fun _ => rfl) h282 (check_cut (c1 := [53120, 11904, 256, 256]) (c2 := [53120, 12160, 256, 256]) (h := [128, 128, 256, 256]) (fun _ => rfl) h283 (check_cut (c1 := [53120, 12160, 128, 256]) (c2 := [53120, 12160, 384, 256]) (h := [128, 128, 128, 256]) (fun _ => rfl) (check_cut (c1 := [53120, 12160, 128, 128]) (c2 := [53120, 12160, 128, 384]) (h := [128, 128, 128, 128]) (fun _ => rfl) (check_cut (c1 := [53056, 12160, 128, 128]) (c2 := [53184, 12160, 128, 128]) (h := [64, 128, 128, 128]) (fun _ => rfl) h284 (check_cut (c1 := [53184, 12096, 128, 128]) (c2 := [53184, 12224, 128, 128]) (h := [64, 64, 128, 128]) (fun _ => rfl) h285 (check_cut (c1 := [53184, 12224, 64, 128]) (c2 := [53184, 12224, 192, 128]) (h := [64, 64, 64, 128]) (fun _ => rfl) (check_cut (c1 := [53184, 12224, 64, 64]) (c2 := [53184, 12224, 64, 192]) (h := [64, 64, 64, 64]) (fun _ => rfl) (check_cut (c1 := [53152, 12224, 64, 64]) (c2 := [53216, 12224, 64, 64]) (h := [32, 64, 64, 64]) (fun _ => rfl) h286 (check_cut (c1 := [53216, 12192, 64, 64]) (c2 := [53216, 12256, 64, 64]) (h := [32, 32, 64, 64]) (fun _ => rfl) h287 (check_cut (c1 := [53216, 12256, 32, 64]) (c2 := [53216, 12256, 96, 64]) (h := [32, 32, 32, 64]) (fun _ => rfl) h288 h289))) h290) h291))) h292) h293))) h294) h295))) h296) h297))) h298) h299))) h300) h301) (check_cut (c1 := [51200, 14336, 2048, 4096]) (c2 := [51200, 14336, 6144, 4096]) (h := [2048, 2048, 2048, 4096]) (fun _ => rfl) (check_cut (c1 := [51200, 14336, 2048, 2048]) (c2 := [51200, 14336, 2048, 6144]) (h := [2048, 2048, 2048, 2048]) (fun _ => rfl) (check_cut (c1 := [50176, 14336, 2048, 2048]) (c2 := [52224, 14336, 2048, 2048]) (h := [1024, 2048, 2048, 2048]) (fun _ => rfl) h302 (check_cut (c1 := [52224, 13312, 2048, 2048]) (c2 := [52224, 15360, 2048, 2048]) (h := [1024, 1024, 2048, 2048]) (fun _ => rfl) (check_cut (c1 := [52224, 13312, 1024, 2048]) (c2 := [52224, 13312, 3072, 2048]) (h := [1024, 1024, 1024, 2048]) (fun _ => rfl) (check_cut (c1 := [52224, 13312, 1024, 1024]) (c2 := [52224, 13312, 1024, 3072]) (h := [1024, 1024, 1024, 1024]) (fun _ => rfl) (check_cut (c1 := [51712, 13312, 1024, 1024]) (c2 := [52736, 13312, 1024, 1024]) (h := [512, 1024, 1024, 1024]) (fun _ => rfl) h303 (check_cut (c1 := [52736, 12800, 1024, 1024]) (c2 := [52736, 13824, 1024, 1024]) (h := [512, 512, 1024, 1024]) (fun _ => rfl) (check_cut (c1 := [52736, 12800, 512, 1024]) (c2 := [52736, 12800, 1536, 1024]) (h := [512, 512, 512, 1024]) (fun _ => rfl) (check_cut (c1 := [52736, 12800, 512, 512]) (c2 := [52736, 12800, 512, 1536]) (h := [512, 512, 512, 512]) (fun _ => rfl) (check_cut (c1 := [52480, 12800, 512, 512]) (c2 := [52992, 12800, 512, 512]) (h := [256, 512, 512, 512]) (fun _ => rfl) h304 (check_cut (c1 := [52992, 12544, 512, 512]) (c2 := [52992, 13056, 512, 512]) (h := [256, 256, 512, 512]) (fun _ => rfl) (check_cut (c1 := [52992, 12544, 256, 512]) (c2 := [52992, 12544, 768, 512]) (h := [256, 256, 256, 512]) (fun _ => rfl) (check_cut (c1 := [52992, 12544, 256, 256]) (c2 := [52992, 12544, 256, 768]) (h := [256, 256, 256, 256]) (fun _ => rfl) (check_cut (c1 := [52864, 12544, 256, 256]) (c2 := [53120, 12544, 256, 256]) (h := [128, 256, 256, 256]) (fun _ => rfl) h305 (check_cut (c1 := [53120, 12416, 256, 256]) (c2 := [53120, 12672, 256, 256]) (h := [128, 128, 256, 256]) (fun _ => rfl) (check_cut (c1 := [53120, 12416, 128, 256]) (c2 := [53120, 12416, 384, 256]) (h := [128, 128, 128, 256]) (fun _ => rfl) (check_cut (c1 := [53120, 12416, 128, 128]) (c2 := [53120, 12416, 128, 384]) (h := [128, 128, 128, 128]) (fun _ => rfl) (check_cut (c1 := [53056, 12416, 128, 128]) (c2 := [53184, 12416, 128, 128]) (h := [64, 128, 128, 128]) (fun _ => rfl) h306 (check_cut (c1 := [53184, 12352, 128, 128]) (c2 := [53184, 12480, 128, 128]) (h := [64, 64, 128, 128]) (fun _ => rfl) h307 h308)) h309) h310) h311)) h312) h313) h314)) h315) h316) h317)) h318) h319) h320)) h321) h322)) (check_cut (c1 := [55296, 10240, 4096, 4096]) (c2 := [55296, 14336, 4096, 4096]) (h := [2048, 2048, 4096, 4096]) (fun _ => rfl) (check_cut (c1 := [55296, 10240, 2048, 4096]) (c2 := [55296, 10240, 6144, 4096]) (h := [2048, 2048, 2048, 4096]) (fun _ => rfl) (check_cut (c1 := [55296, 10240, 2048, 2048]) (c2 := [55296, 10240, 2048, 6144]) (h := [2048, 2048, 2048, 2048]) (fun _ => rfl) (check_cut (c1 := [54272, 10240, 2048, 2048]) (c2 := [56320, 10240, 2048, 2048]) (h := [1024, 2048, 2048, 2048]) (fun _ => rfl) (check_cut (c1 := [54272, 9216, 2048, 2048]) (c2 := [54272, 11264, 2048, 2048]) (h := [1024, 1024, 2048, 2048]) (fun _ => rfl) h323 (check_cut (c1 := [54272, 11264, 1024, 2048]) (c2 := [54272, 11264, 3072, 2048]) (h := [1024, 1024, 1024, 2048]) (fun _ => rfl) (check_cut (c1 := [54272, 11264, 1024, 1024]) (c2 := [54272, 11264, 1024, 3072]) (h := [1024, 1024, 1024, 1024]) (fun _ => rfl) (check_cut (c1 := [53760, 11264, 1024, 1024]) (c2 := [54784, 11264, 1024, 1024]) (h := [512, 1024, 1024, 1024]) (fun _ => rfl) (check_cut (c1 := [53760, 10752, 1024, 1024]) (c2 := [53760, 11776, 1024, 1024]) (h := [512, 512, 1024, 1024]) (fun _ => rfl) h324 (check_cut (c1 := [53760, 11776, 512, 1024]) (c2 := [53760, 11776, 1536, 1024]) (h := [512, 512, 512, 1024]) (fun _ => rfl) (check_cut (c1 := [53760, 11776, 512, 512]) (c2 := [53760, 11776, 512, 1536]) (h := [512, 512, 512, 512]) (fun _ => rfl) (check_cut (c1 := [53504, 11776, 512, 512]) (c2 := [54016, 11776, 512, 512]) (h := [256, 512, 512, 512]) (fun _ => rfl) (check_cut (c1 := [53504, 11520, 512, 512]) (c2 := [53504, 12032, 512, 512]) (h := [256, 256, 512, 512]) (fun _ => rfl) h325 (check_cut (c1 := [53504, 12032, 256, 512]) (c2 := [53504, 12032, 768, 512]) (h := [256, 256, 256, 512]) (fun _ => rfl) (check_cut (c1 := [53504, 12032, 256, 256]) (c2 := [53504, 12032, 256, 768]) (h := [256, 256, 256, 256]) (fun _ => rfl) (check_cut (c1 := [53376, 12032, 256, 256]) (c2 := [53632, 12032, 256, 256]) (h := [128, 256, 256, 256]) (fun _ => rfl) (check_cut (c1 := [53376, 11904, 256, 256]) (c2 := [53376, 12160, 256, 256]) (h := [128, 128, 256, 256]) (fun _ => rfl) h326 (check_cut (c1 := [53376, 12160, 128, 256]) (c2 := [53376, 12160, 384, 256]) (h := [128, 128, 128, 256]) (fun _ => rfl) (check_cut (c1 := [53376, 12160, 128, 128]) (c2 := [53376, 12160, 128, 384]) (h := [128, 128, 128, 128]) (fun _ => rfl) (check_cut (c1 := [53312, 12160, 128, 128]) (c2 := [53440, 12160, 128, 128]) (h := [64, 128, 128, 128]) (fun _ => rfl) (check_cut (c1 := [53312, 12096, 128, 128]) (c2 := [53312, 12224, 128, 128]) (h := [64, 64, 128, 128]) (fun _ => rfl) h327 (check_cut (c1 := [53312, 12224, 64, 128]) (c2 := [53312, 12224, 192, 128]) (h := [64, 64, 64, 128]) (fun _ => rfl) (check_cut (c1 := [53312, 12224, 64, 64]) (c2 := [53312, 12224, 64, 192]) (h := [64, 64, 64, 64]) (fun _ => rfl) (check_cut (c1 := [53280, 12224, 64, 64]) (c2 := [53344, 12224, 64, 64]) (h := [32, 64, 64, 64]) (fun _ => rfl) (check_cut (c1 := [53280, 12192, 64, 64]) (c2 := [53280, 12256, 64, 64]) (h := [32, 32, 64, 64]) (fun _ => rfl) h328 (check_cut (c1 := [53280, 12256, 32, 64]) (c2 := [53280, 12256, 96, 64]) (h := [32, 32, 32, 64]) (fun _ => rfl) (check_cut (c1 := [53280, 12256, 32, 32]) (c2 := [53280, 12256, 32, 96]) (h := [32, 32, 32, 32]) (fun _ => rfl) (check_cut (c1 := [53264, 12256, 32, 32]) (c2 := [53296, 12256, 32, 32]) (h := [16, 32, 32, 32]) (fun _ => rfl) (check_cut (c1 := [53264, 12240, 32, 32]) (c2 := [53264, 12272, 32, 32]) (h := [16, 16, 32, 32]) (fun _ => rfl) h329 (check_cut (c1 := [53264, 12272, 16, 32]) (c2 := [53264, 12272, 48, 32]) (h := [16, 16, 16, 32]) (fun _ => rfl) h330 h331)) (check_cut (c1 := [53296, 12240, 32, 32]) (c2 := [53296, 12272, 32, 32]) (h := [16, 16, 32, 32]) (fun _ => rfl) h332 (check_cut (c1 := [53296, 12272, 16, 32]) (c2 := [53296, 12272, 48, 32]) (h := [16, 16, 16, 32]) (fun _ => rfl) h333 (check_cut (c1 := [53296, 12272, 48, 16]) (c2 := [53296, 12272, 48, 48]) (h := [16, 16, 16, 16]) (fun _ => rfl) h334 h335)))) h336) (check_cut (c1 := [53280, 12256, 96, 32]) (c2 := [53280, 12256, 96, 96]) (h := [32, 32, 32, 32]) (fun _ => rfl) h337 h338))) (check_cut (c1 := [53344, 12192, 64, 64]) (c2 := [53344, 12256, 64, 64]) (h := [32, 32, 64, 64]) (fun _ => rfl) h339 (check_cut (c1 := [53344, 12256, 32, 64]) (c2 := [53344, 12256, 96, 64]) (h := [32, 32, 32, 64]) (fun _ => rfl) (check_cut (c1 := [53344, 12256, 32, 32]) (c2 := [53344, 12256, 32, 96]) (h := [32, 32, 32, 32]) (fun _ => rfl) (check_cut (c1 := [53328, 12256, 32, 32]) (c2 := [53360, 12256, 32, 32]) (h := [16, 32, 32, 32]) (fun _ => rfl) h340 h341) h342) h343))) h344) h345)) h346) h347) h348)) h349) h350) h351)) h352) h353) h354)) h355) h356) h357)) h358) h359) h360) (check_cut (c1 := [55296, 14336, 2048, 4096]) (c2 := [55296, 14336, 6144, 4096]) (h := [2048, 2048, 2048, 4096]) (fun _ => rfl) (check_cut (c1 := [55296, 14336, 2048, 2048]) (c2 := [55296, 14336, 2048, 6144]) (h := [2048, 2048, 2048, 2048]) (fun _ => rfl) (check_cut (c1 := [54272, 14336, 2048, 2048]) (c2 := [56320, 14336, 2048, 2048]) (h := [1024, 2048, 2048, 2048]) (fun _ => rfl) (check_cut (c1 := [54272, 13312, 2048, 2048]) (c2 := [54272, 15360, 2048, 2048]) (h := [1024, 1024, 2048, 2048]) (fun _ => rfl) (check_cut (c1 := [54272, 13312, 1024, 2048]) (c2 := [54272, 13312, 3072, 2048]) (h := [1024, 1024, 1024, 2048]) (fun _ => rfl) (check_cut (c1 := [54272, 13312, 1024, 1024]) (c2 := [54272, 13312, 1024, 3072]) (h := [1024, 1024, 1024, 1024]) (fun _ => rfl) (check_cut (c1 := [53760, 13312, 1024, 1024]) (c2 := [54784, 13312, 1024, 1024]) (h := [512, 1024, 1024, 1024]) (fun _ => rfl) (check_cut (c1 := [53760, 12800, 1024, 1024]) (c2 := [53760, 13824, 1024, 1024]) (h := [512, 512, 1024, 1024]) (fun _ => rfl) (check_cut (c1 := [53760, 12800, 512, 1024]) (c2 := [53760, 12800, 1536, 1024]) (h := [512, 512, 512, 1024]) (fun _ => rfl) (check_cut (c1 := [53760, 12800, 512, 512]) (c2 := [53760, 12800, 512, 1536]) (h := [512, 512, 512, 512]) (fun _ => rfl) (check_cut (c1 := [53504, 12800, 512, 512]) (c2 := [54016, 12800, 512, 512]) (h := [256, 512, 512, 512]) (fun _ => rfl) (check_cut (c1 := [53504, 12544, 512, 512]) (c2 := [53504, 13056, 512, 512]) (h := [256, 256, 512, 512]) (fun _ => rfl) (check_cut (c1 := [53504, 12544, 256, 512]) (c2 := [53504, 12544, 768, 512]) (h := [256, 256, 256, 512]) (fun _ => rfl) (check_cut (c1 := [53504, 12544, 256, 256]) (c2 := [53504, 12544, 256, 768]) (h := [256, 256, 256, 256]) (fun _ => rfl) (check_cut (c1 := [53376, 12544, 256, 256]) (c2 := [53632, 12544, 256, 256]) (h := [128, 256, 256, 256]) (fun _ => rfl) (check_cut (c1 := [53376, 12416, 256, 256]) (c2 := [53376, 12672, 256, 256]) (h := [128, 128, 256, 256]) (fun _ => rfl) (check_cut (c1 := [53376, 12416, 128, 256]) (c2 := [53376, 12416, 384, 256]) (h := [128, 128, 128, 256]) (fun _ => rfl) (check_cut (c1 := [53376, 12416, 128, 128]) (c2 := [53376, 12416, 128, 384]) (h := [128, 128, 128, 128]) (fun _ => rfl) (check_cut (c1 := [53312, 12416, 128, 128]) (c2 := [53440, 12416, 128, 128]) (h := [64, 128, 128, 128]) (fun _ => rfl) (check_cut (c1 := [53312, 12352, 128, 128]) (c2 := [53312, 12480, 128, 128]) (h := [64, 64, 128, 128]) (fun _ => rfl) (check_cut (c1 := [53312, 12352, 64, 128]) (c2 := [53312, 12352, 192, 128]) (h := [64, 64, 64, 128]) (fun _ => rfl) (check_cut (c1 := [53312, 12352, 64, 64]) (c2 := [53312, 12352, 64, 192]) (h := [64, 64, 64, 64]) (fun _ => rfl) (check_cut (c1 := [53280, 12352, 64, 64]) (c2 := [53344, 12352, 64, 64]) (h := [32, 64, 64, 64]) (fun _ => rfl) (check_cut (c1 := [53280, 12320, 64, 64]) (c2 := [53280, 12384, 64, 64]) (h := [32, 32, 64, 64]) (fun _ => rfl) (check_cut (c1 := [53280, 12320, 32, 64]) (c2 := [53280, 12320, 96, 64]) (h := [32, 32, 32, 64]) (fun _ => rfl) (check_cut (c1 := [53280, 12320, 32, 32]) (c2 := [53280, 12320, 32, 96]) (h := [32, 32, 32, 32]) (fun _ => rfl) (check_cut (c1 := [53264, 12320, 32, 32]) (c2 := [53296, 12320, 32, 32]) (h := [16, 32, 32, 32]) (fun _ => rfl) h361 (check_cut (c1 := [53296, 12304, 32, 32]) (c2 := [53296, 12336, 32, 32]) (h := [16, 16, 32, 32]) (fun _ => rfl) (check_cut (c1 := [53296, 12304, 16, 32]) (c2 := [53296, 12304, 48, 32]) (h := [16, 16, 16, 32]) (fun _ => rfl) h362 (check_cut (c1 := [53296, 12304, 48, 16]) (c2 := [53296, 12304, 48, 48]) (h := [16, 16, 16, 16]) (fun _ => rfl) h363 h364)) h365)) h366) (check_cut (c1 := [53280, 12320, 96, 32]) (c2 := [53280, 12320, 96, 96]) (h := [32, 32, 32, 32]) (fun _ => rfl) h367 h368)) h369) (check_cut (c1 := [53344, 12320, 64, 64]) (c2 := [53344, 12384, 64, 64]) (h := [32, 32, 64, 64]) (fun _ => rfl) (check_cut (c1 := [53344, 12320, 32, 64]) (c2 := [53344, 12320, 96, 64]) (h := [32, 32, 32, 64]) (fun _ => rfl) (check_cut (c1 := [53344, 12320, 32, 32]) (c2 := [53344, 12320, 32, 96]) (h := [32, 32, 32, 32]) (fun _ => rfl) (check_cut (c1 := [53328, 12320, 32, 32]) (c2 := [53360, 12320, 32, 32]) (h := [16, 32, 32, 32]) (fun _ => rfl) (check_cut (c1 := [53328, 12304, 32, 32]) (c2 := [53328, 12336, 32, 32]) (h := [16, 16, 32, 32]) (fun _ => rfl) h370 h371) h372) h373) (check_cut (c1 := [53344, 12320, 96, 32]) (c2 := [53344, 12320, 96, 96]) (h := [32, 32, 32, 32]) (fun _ => rfl) h374 h375)) h376)) h377) (check_cut (c1 := [53312, 12352, 192, 64]) (c2 := [53312, 12352, 192, 192]) (h := [64, 64, 64, 64]) (fun _ => rfl) h378 h379)) h380) (check_cut (c1 := [53440, 12352, 128, 128]) (c2 := [53440, 12480, 128, 128]) (h := [64, 64, 128, 128]) (fun _ => rfl) (check_cut (c1 := [53440, 12352, 64, 128]) (c2 := [53440, 12352, 192, 128]) (h := [64, 64, 64, 128]) (fun _ => rfl) (check_cut (c1 := [53440, 12352, 64, 64]) (c2 := [53440, 12352, 64, 192]) (h := [64, 64, 64, 64]) (fun _ => rfl) (check_cut (c1 := [53408, 12352, 64, 64]) (c2 := [53472, 12352, 64, 64]) (h := [32, 64, 64, 64]) (fun _ => rfl) h381 h382) h383) h384) h385)) h386) h387) h388) (check_cut (c1 := [53632, 12416, 256, 256]) (c2 := [53632, 12672, 256, 256]) (h := [128, 128, 256, 256]) (fun _ => rfl) (check_cut (c1 := [53632, 12416, 128, 256]) (c2 := [53632, 12416, 384, 256]) (h := [128, 128, 128, 256]) (fun _ => rfl) h389 h390) h391)) h392) h393) (check_cut (c1 := [53504, 13056, 256, 512]) (c2 := [53504, 13056, 768, 512]) (h := [256, 256, 256, 512]) (fun _ => rfl) h394 h395)) (check_cut (c1 := [54016, 12544, 512, 512]) (c2 := [54016, 13056, 512, 512]) (h := [256, 256, 512, 512]) (fun _ => rfl) (check_cut (c1 := [54016, 12544, 256, 512]) (c2 := [54016, 12544, 768, 512]) (h := [256, 256, 256, 512]) (fun _ => rfl) h396 h397) h398)) h399) h400) (check_cut (c1 := [53760, 13824, 512, 1024]) (c2 := [53760, 13824, 1536, 1024]) (h := [512, 512, 512, 1024]) (fun _ => rfl) h401 h402)) (check_cut (c1 := [54784, 12800, 1024, 1024]) (c2 := [54784, 13824, 1024, 1024]) (h := [512, 512, 1024, 1024]) (fun _ => rfl) (check_cut (c1 := [54784, 12800, 512, 1024]) (c2 := [54784, 12800, 1536, 1024]) (h := [512, 512, 512, 1024]) (fun _ => rfl) h403 h404) h405)) h406) h407) (check_cut (c1 := [54272, 15360, 1024, 2048]) (c2 := [54272, 15360, 3072, 2048]) (h := [1024, 1024, 1024, 2048]) (fun _ => rfl) h408 h409)) (check_cut (c1 := [56320, 13312, 2048, 2048]) (c2 := [56320, 15360, 2048, 2048]) (h := [1024, 1024, 2048, 2048]) (fun _ => rfl) (check_cut (c1 := [56320, 13312, 1024, 2048]) (c2 := [56320, 13312, 3072, 2048]) (h := [1024, 1024, 1024, 2048]) (fun _ => rfl) h410 h411) h412)) h413) (check_cut (c1 := [55296, 14336, 6144, 2048]) (c2 := [55296, 14336, 6144, 6144]) (h := [2048, 2048, 2048, 2048]) (fun _ => rfl) h414 h415)))) h416) (check_cut (c1 := [53248, 12288, 12288, 4096]) (c2 := [53248, 12288, 12288, 12288]) (h := [4096, 4096, 4096, 4096]) (fun _ => rfl) h417 h418))) (check_cut (c1 := [61440, 4096, 8192, 8192]) (c2 := [61440, 12288, 8192, 8192]) (h := [4096, 4096, 8192, 8192]) (fun _ => rfl) h419 (check_cut (c1 := [61440, 12288, 4096, 8192]) (c2 := [61440, 12288, 12288, 8192]) (h := [4096, 4096, 4096, 8192]) (fun _ => rfl) (check_cut (c1 := [61440, 12288, 4096, 4096]) (c2 := [61440, 12288, 4096, 12288]) (h := [4096, 4096, 4096, 4096]) (fun _ => rfl) (check_cut (c1 := [59392, 12288, 4096, 4096]) (c2 := [63488, 12288, 4096, 4096]) (h := [2048, 4096, 4096, 4096]) (fun _ => rfl) (check_cut (c1 := [59392, 10240, 4096, 4096]) (c2 := [59392, 14336, 4096, 4096]) (h := [2048, 2048, 4096, 4096]) (fun _ => rfl) h420 (check_cut (c1 := [59392, 14336, 2048, 4096]) (c2 := [59392, 14336, 6144, 4096]) (h := [2048, 2048, 2048, 4096]) (fun _ => rfl) h421 h422)) h423) h424) h425))) h426) h427) (check_cut (c1 := [57344, 24576, 8192, 16384]) (c2 := [57344, 24576, 24576, 16384]) (h := [8192, 8192, 8192, 16384]) (fun _ => rfl) (check_cut (c1 := [57344, 24576, 8192, 8192]) (c2 := [57344, 24576, 8192, 24576]) (h := [8192, 8192, 8192, 8192]) (fun _ => rfl) (check_cut (c1 := [53248, 24576, 8192, 8192]) (c2 := [61440, 24576, 8192, 8192]) (h := [4096, 8192, 8192, 8192]) (fun _ => rfl) (check_cut (c1 := [53248, 20480, 8192, 8192]) (c2 := [53248, 28672, 8192, 8192]) (h := [4096, 4096, 8192, 8192]) (fun _ => rfl) (check_cut (c1 := [53248, 20480, 4096, 8192]) (c2 := [53248, 20480, 12288, 8192]) (h := [4096, 4096, 4096, 8192]) (fun _ => rfl) (check_cut (c1 := [53248, 20480, 4096, 4096]) (c2 := [53248, 20480, 4096, 12288]) (h := [4096, 4096, 4096, 4096]) (fun _ => rfl) (check_cut (c1 := [51200, 20480, 4096, 4096]) (c2 := [55296, 20480, 4096, 4096]) (h := [2048, 4096, 4096, 4096]) (fun _ => rfl) h428 (check_cut (c1 := [55296, 18432, 4096, 4096]) (c2 := [55296, 22528, 4096, 4096]) (h := [2048, 2048, 4096, 4096]) (fun _ => rfl) (check_cut (c1 := [55296, 18432, 2048, 4096]) (c2 := [55296, 18432, 6144, 4096]) (h := [2048, 2048, 2048, 4096]) (fun _ => rfl) (check_cut (c1 := [55296, 18432, 2048, 2048]) (c2 := [55296, 18432, 2048, 6144]) (h := [2048, 2048, 2048, 2048]) (fun _ => rfl) h429 h430) h431) h432)) h433) (check_cut (c1 := [53248, 20480, 12288, 4096]) (c2 := [53248, 20480, 12288, 12288]) (h := [4096, 4096, 4096, 4096]) (fun _ => rfl) h434 h435)) (check_cut (c1 := [53248, 28672, 4096, 8192]) (c2 := [53248, 28672, 12288, 8192]) (h := [4096, 4096, 4096, 8192]) (fun _ => rfl) h436 h437)) (check_cut (c1 := [61440, 20480, 8192, 8192]) (c2 := [61440, 28672, 8192, 8192]) (h := [4096, 4096, 8192, 8192]) (fun _ => rfl) (check_cut (c1 := [61440, 20480, 4096, 8192]) (c2 := [61440, 20480, 12288, 8192]) (h := [4096, 4096, 4096, 8192]) (fun _ => rfl) (check_cut (c1 := [61440, 20480, 4096, 4096]) (c2 := [61440, 20480, 4096, 12288]) (h := [4096, 4096, 4096, 4096]) (fun _ => rfl) (check_cut (c1 := [59392, 20480, 4096, 4096]) (c2 := [63488, 20480, 4096, 4096]) (h := [2048, 4096, 4096, 4096]) (fun _ => rfl) (check_cut (c1 := [59392, 18432, 4096, 4096]) (c2 := [59392, 22528, 4096, 4096]) (h := [2048, 2048, 4096, 4096]) (fun _ => rfl) (check_cut (c1 := [59392, 18432, 2048, 4096]) (c2 := [59392, 18432, 6144, 4096]) (h := [2048, 2048, 2048, 4096]) (fun _ => rfl) h438 h439) h440) h441) h442) (check_cut (c1 := [61440, 20480, 12288, 4096]) (c2 := [61440, 20480, 12288, 12288]) (h := [4096, 4096, 4096, 4096]) (fun _ => rfl) h443 h444)) (check_cut (c1 := [61440, 28672, 4096, 8192]) (c2 := [61440, 28672, 12288, 8192]) (h := [4096, 4096, 4096, 8192]) (fun _ => rfl) (check_cut (c1 := [61440, 28672, 4096, 4096]) (c2 := [61440, 28672, 4096, 12288]) (h := [4096, 4096, 4096, 4096]) (fun _ => rfl) (check_cut (c1 := [59392, 28672, 4096, 4096]) (c2 := [63488, 28672, 4096, 4096]) (h := [2048, 4096, 4096, 4096]) (fun _ => rfl) h445 h446) h447) (check_cut (c1 := [61440, 28672, 12288, 4096]) (c2 := [61440, 28672, 12288, 12288]) (h := [4096, 4096, 4096, 4096]) (fun _ => rfl) h448 h449)))) h450) (check_cut (c1 := [57344, 24576, 24576, 8192]) (c2 := [57344, 24576, 24576, 24576]) (h := [8192, 8192, 8192, 8192]) (fun _ => rfl) (check_cut (c1 := [53248, 24576, 24576, 8192]) (c2 := [61440, 24576, 24576, 8192]) (h := [4096, 8192, 8192, 8192]) (fun _ => rfl) h451 h452) h453)))) h454) h455) (check_cut (c1 := [49152, 49152, 16384, 32768]) (c2 := [49152, 49152, 49152, 32768]) (h := [16384, 16384, 16384, 32768]) (fun _ => rfl) (check_cut (c1 := [49152, 49152, 16384, 16384]) (c2 := [49152, 49152, 16384, 49152]) (h := [16384, 16384, 16384, 16384]) (fun _ => rfl) (check_cut (c1 := [40960, 49152, 16384, 16384]) (c2 := [57344, 49152, 16384, 16384]) (h := [8192, 16384, 16384, 16384]) (fun _ => rfl) (check_cut (c1 := [40960, 40960, 16384, 16384]) (c2 := [40960, 57344, 16384, 16384]) (h := [8192, 8192, 16384, 16384]) (fun _ => rfl) (check_cut (c1 := [40960, 40960, 8192, 16384]) (c2 := [40960, 40960, 24576, 16384]) (h := [8192, 8192, 8192, 16384]) (fun _ => rfl) (check_cut (c1 := [40960, 40960, 8192, 8192]) (c2 := [40960, 40960, 8192, 24576]) (h := [8192, 8192, 8192, 8192]) (fun _ => rfl) (check_cut (c1 := [36864, 40960, 8192, 8192]) (c2 := [45056, 40960, 8192, 8192]) (h := [4096, 8192, 8192, 8192]) (fun _ => rfl) h456 h457) h458) (check_cut (c1 := [40960, 40960, 24576, 8192]) (c2 := [40960, 40960, 24576, 24576]) (h := [8192, 8192, 8192, 8192]) (fun _ => rfl) (check_cut (c1 := [36864, 40960, 24576, 8192]) (c2 := [45056, 40960, 24576, 8192]) (h := [4096, 8192, 8192, 8192]) (fun _ => rfl) h459 h460) (check_cut (c1 := [36864, 40960, 24576, 24576]) (c2 := [45056, 40960, 24576, 24576]) (h := [4096, 8192, 8192, 8192]) (fun _ => rfl) h461 h462))) h463) (check_cut (c1 := [57344, 40960, 16384, 16384]) (c2 := [57344, 57344, 16384, 16384]) (h := [8192, 8192, 16384, 16384]) (fun _ => rfl) (check_cut (c1 := [57344, 40960, 8192, 16384]) (c2 := [57344, 40960, 24576, 16384]) (h := [8192, 8192, 8192, 16384]) (fun _ => rfl) (check_cut (c1 := [57344, 40960, 8192, 8192]) (c2 := [57344, 40960, 8192, 24576]) (h := [8192, 8192, 8192, 8192]) (fun _ => rfl) (check_cut (c1 := [53248, 40960, 8192, 8192]) (c2 := [61440, 40960, 8192, 8192]) (h := [4096, 8192, 8192, 8192]) (fun _ => rfl) (check_cut (c1 := [53248, 36864, 8192, 8192]) (c2 := [53248, 45056, 8192, 8192]) (h := [4096, 4096, 8192, 8192]) (fun _ => rfl) h464 (check_cut (c1 := [53248, 45056, 4096, 8192]) (c2 := [53248, 45056, 12288, 8192]) (h := [4096, 4096, 4096, 8192]) (fun _ => rfl) h465 h466)) (check_cut (c1 := [61440, 36864, 8192, 8192]) (c2 := [61440, 45056, 8192, 8192]) (h := [4096, 4096, 8192, 8192]) (fun _ => rfl) (check_cut (c1 := [61440, 36864, 4096, 8192]) (c2 := [61440, 36864, 12288, 8192]) (h := [4096, 4096, 4096, 8192]) (fun _ => rfl) (check_cut (c1 := [61440, 36864, 4096, 4096]) (c2 := [61440, 36864, 4096, 12288]) (h := [4096, 4096, 4096, 4096]) (fun _ => rfl) (check_cut (c1 := [59392, 36864, 4096, 4096]) (c2 := [63488, 36864, 4096, 4096]) (h := [2048, 4096, 4096, 4096]) (fun _ => rfl) h467 h468) h469) h470) (check_cut (c1 := [61440, 45056, 4096, 8192]) (c2 := [61440, 45056, 12288, 8192]) (h := [4096, 4096, 4096, 8192]) (fun _ => rfl) (check_cut (c1 := [61440, 45056, 4096, 4096]) (c2 := [61440, 45056, 4096, 12288]) (h := [4096, 4096, 4096, 4096]) (fun _ => rfl) (check_cut (c1 := [59392, 45056, 4096, 4096]) (c2 := [63488, 45056, 4096, 4096]) (h := [2048, 4096, 4096, 4096]) (fun _ => rfl) h471 (check_cut (c1 := [63488, 43008, 4096, 4096]) (c2 := [63488, 47104, 4096, 4096]) (h := [2048, 2048, 4096, 4096]) (fun _ => rfl) h472 h473)) h474) (check_cut (c1 := [61440, 45056, 12288, 4096]) (c2 := [61440, 45056, 12288, 12288]) (h := [4096, 4096, 4096, 4096]) (fun _ => rfl) (check_cut (c1 := [59392, 45056, 12288, 4096]) (c2 := [63488, 45056, 12288, 4096]) (h := [2048, 4096, 4096, 4096]) (fun _ => rfl) (check_cut (c1 := [59392, 43008, 12288, 4096]) (c2 := [59392, 47104, 12288, 4096]) (h := [2048, 2048, 4096, 4096]) (fun _ => rfl) h475 h476) (check_cut (c1 := [63488, 43008, 12288, 4096]) (c2 := [63488, 47104, 12288, 4096]) (h := [2048, 2048, 4096, 4096]) (fun _ => rfl) h477 (check_cut (c1 := [63488, 47104, 10240, 4096]) (c2 := [63488, 47104, 14336, 4096]) (h := [2048, 2048, 2048, 4096]) (fun _ => rfl) (check_cut (c1 := [63488, 47104, 10240, 2048]) (c2 := [63488, 47104, 10240, 6144]) (h := [2048, 2048, 2048, 2048]) (fun _ => rfl) h478 h479) h480))) h481)))) h482) (check_cut (c1 := [57344, 40960, 24576, 8192]) (c2 := [57344, 40960, 24576, 24576]) (h := [8192, 8192, 8192, 8192]) (fun _ => rfl) (check_cut (c1 := [53248, 40960, 24576, 8192]) (c2 := [61440, 40960, 24576, 8192]) (h := [4096, 8192, 8192, 8192]) (fun _ => rfl) (check_cut (c1 := [53248, 36864, 24576, 8192]) (c2 := [53248, 45056, 24576, 8192]) (h := [4096, 4096, 8192, 8192]) (fun _ => rfl) h483 h484) (check_cut (c1 := [61440, 36864, 24576, 8192]) (c2 := [61440, 45056, 24576, 8192]) (h := [4096, 4096, 8192, 8192]) (fun _ => rfl) h485 h486)) h487)) (check_cut (c1 := [57344, 57344, 8192, 16384]) (c2 := [57344, 57344, 24576, 16384]) (h := [8192, 8192, 8192, 16384]) (fun _ => rfl) (check_cut (c1 := [57344, 57344, 8192, 8192]) (c2 := [57344, 57344, 8192, 24576]) (h := [8192, 8192, 8192, 8192]) (fun _ => rfl) (check_cut (c1 := [53248, 57344, 8192, 8192]) (c2 := [61440, 57344, 8192, 8192]) (h := [4096, 8192, 8192, 8192]) (fun _ => rfl) (check_cut (c1 := [53248, 53248, 8192, 8192]) (c2 := [53248, 61440, 8192, 8192]) (h := [4096, 4096, 8192, 8192]) (fun _ => rfl) (check_cut (c1 := [53248, 53248, 4096, 8192]) (c2 := [53248, 53248, 12288, 8192]) (h := [4096, 4096, 4096, 8192]) (fun _ => rfl) h488 h489) h490) (check_cut (c1 := [61440, 53248, 8192, 8192]) (c2 := [61440, 61440, 8192, 8192]) (h := [4096, 4096, 8192, 8192]) (fun _ => rfl) (check_cut (c1 := [61440, 53248, 4096, 8192]) (c2 := [61440, 53248, 12288, 8192]) (h := [4096, 4096, 4096, 8192]) (fun _ => rfl) (check_cut (c1 := [61440, 53248, 4096, 4096]) (c2 := [61440, 53248, 4096, 12288]) (h := [4096, 4096, 4096, 4096]) (fun _ => rfl) (check_cut (c1 := [59392, 53248, 4096, 4096]) (c2 := [63488, 53248, 4096, 4096]) (h := [2048, 4096, 4096, 4096]) (fun _ => rfl) h491 (check_cut (c1 := [63488, 51200, 4096, 4096]) (c2 := [63488, 55296, 4096, 4096]) (h := [2048, 2048, 4096, 4096]) (fun _ => rfl) h492 h493)) h494) (check_cut (c1 := [61440, 53248, 12288, 4096]) (c2 := [61440, 53248, 12288, 12288]) (h := [4096, 4096, 4096, 4096]) (fun _ => rfl) (check_cut (c1 := [59392, 53248, 12288, 4096]) (c2 := [63488, 53248, 12288, 4096]) (h := [2048, 4096, 4096, 4096]) (fun _ => rfl) (check_cut (c1 := [59392, 51200, 12288, 4096]) (c2 := [59392, 55296, 12288, 4096]) (h := [2048, 2048, 4096, 4096]) (fun _ => rfl) h495 h496) (check_cut (c1 := [63488, 51200, 12288, 4096]) (c2 := [63488, 55296, 12288, 4096]) (h := [2048, 2048, 4096, 4096]) (fun _ => rfl) (check_cut (c1 := [63488, 51200, 10240, 4096]) (c2 := [63488, 51200, 14336, 4096]) (h := [2048, 2048, 2048, 4096]) (fun _ => rfl) (check_cut (c1 := [63488, 51200, 10240, 2048]) (c2 := [63488, 51200, 10240, 6144]) (h := [2048, 2048, 2048, 2048]) (fun _ => rfl) (check_cut (c1 := [62464, 51200, 10240, 2048]) (c2 := [64512, 51200, 10240, 2048]) (h := [1024, 2048, 2048, 2048]) (fun _ => rfl) (check_cut (c1 := [62464, 50176, 10240, 2048]) (c2 := [62464, 52224, 10240, 2048]) (h := [1024, 1024, 2048, 2048]) (fun _ => rfl) h497 h498) (check_cut (c1 := [64512, 50176, 10240, 2048]) (c2 := [64512, 52224, 10240, 2048]) (h := [1024, 1024, 2048, 2048]) (fun _ => rfl) (check_cut (c1 := [64512, 50176, 9216, 2048]) (c2 := [64512, 50176, 11264, 2048]) (h := [1024, 1024, 1024, 2048]) (fun _ => rfl) h499 h500) (check_cut (c1 := [64512, 52224, 9216, 2048]) (c2 := [64512, 52224, 11264, 2048]) (h := [1024, 1024, 1024, 2048]) (fun _ => rfl) h501 (check_cut (c1 := [64512, 52224, 11264, 1024]) (c2 := [64512, 52224, 11264, 3072]) (h := [1024, 1024, 1024, 1024]) (fun _ => rfl) (check_cut (c1 := [64000, 52224, 11264, 1024]) (c2 := [65024, 52224, 11264, 1024]) (h := [512, 1024, 1024, 1024]) (fun _ => rfl) (check_cut (c1 := [64000, 51712, 11264, 1024]) (c2 := [64000, 52736, 11264, 1024]) (h := [512, 512, 1024, 1024]) (fun _ => rfl) h502 h503) (check_cut (c1 := [65024, 51712, 11264, 1024]) (c2 := [65024, 52736, 11264, 1024]) (h := [512, 512, 1024, 1024]) (fun _ => rfl) (check_cut (c1 := [65024, 51712, 10752, 1024]) (c2 := [65024, 51712, 11776, 1024]) (h := [512, 512, 512, 1024]) (fun _ => rfl) h504 h505) (check_cut (c1 := [65024, 52736, 10752, 1024]) (c2 := [65024, 52736, 11776, 1024]) (h := [512, 512, 512, 1024]) (fun _ => rfl) h506 (check_cut (c1 := [65024, 52736, 11776, 512]) (c2 := [65024, 52736, 11776, 1536]) (h := [512, 512, 512, 512]) (fun _ => rfl) (check_cut (c1 := [64768, 52736, 11776, 512]) (c2 := [65280, 52736, 11776, 512]) (h := [256, 512, 512, 512]) (fun _ => rfl) (check_cut (c1 := [64768, 52480, 11776, 512]) (c2 := [64768, 52992, 11776, 512]) (h := [256, 256, 512, 512]) (fun _ => rfl) h507 h508) (check_cut (c1 := [65280, 52480, 11776, 512]) (c2 := [65280, 52992, 11776, 512]) (h := [256, 256, 512, 512]) (fun _ => rfl) h509 (check_cut (c1 := [65280, 52992, 11520, 512]) (c2 := [65280, 52992, 12032, 512]) (h := [256, 256, 256, 512]) (fun _ => rfl) h510 (check_cut (c1 := [65280, 52992, 12032, 256]) (c2 := [65280, 52992, 12032, 768]) (h := [256, 256, 256, 256]) (fun _ => rfl) (check_cut (c1 := [65152, 52992, 12032, 256]) (c2 := [65408, 52992, 12032, 256]) (h := [128, 256, 256, 256]) (fun _ => rfl) (check_cut (c1 := [65152, 52864, 12032, 256]) (c2 := [65152, 53120, 12032, 256]) (h := [128, 128, 256, 256]) (fun _ => rfl) h511 h512) (check_cut (c1 := [65408, 52864, 12032, 256]) (c2 := [65408, 53120, 12032, 256]) (h := [128, 128, 256, 256]) (fun _ => rfl) h513 (check_cut (c1 := [65408, 53120, 11904, 256]) (c2 := [65408, 53120, 12160, 256]) (h := [128, 128, 128, 256]) (fun _ => rfl) h514 (check_cut (c1 := [65408, 53120, 12160, 128]) (c2 := [65408, 53120, 12160, 384]) (h := [128, 128, 128, 128]) (fun _ => rfl) (check_cut (c1 := [65344, 53120, 12160, 128]) (c2 := [65472, 53120, 12160, 128]) (h := [64, 128, 128, 128]) (fun _ => rfl) (check_cut (c1 := [65344, 53056, 12160, 128]) (c2 := [65344, 53184, 12160, 128]) (h := [64, 64, 128, 128]) (fun _ => rfl) h515 h516) (check_cut (c1 := [65472, 53056, 12160, 128]) (c2 := [65472, 53184, 12160, 128]) (h := [64, 64, 128, 128]) (fun _ => rfl) h517 (check_cut (c1 := [65472, 53184, 12096, 128]) (c2 := [65472, 53184, 12224, 128]) (h := [64, 64, 64, 128]) (fun _ => rfl) (check_cut (c1 := [65472, 53184, 12096, 64]) (c2 := [65472, 53184, 12096, 192]) (h := [64, 64, 64, 64]) (fun _ => rfl) h518 h519) (check_cut (c1 := [65472, 53184, 12224, 64]) (c2 := [65472, 53184, 12224, 192]) (h := [64, 64, 64, 64]) (fun _ => rfl) (check_cut (c1 := [65440, 53184, 12224, 64]) (c2 := [65504, 53184, 12224, 64]) (h := [32, 64, 64, 64]) (fun _ => rfl) (check_cut (c1 := [65440, 53152, 12224, 64]) (c2 := [65440, 53216, 12224, 64]) (h := [32, 32, 64, 64]) (fun _ => rfl) h520 (check_cut (c1 := [65440, 53216, 12192, 64]) (c2 := [65440, 53216, 12256, 64]) (h := [32, 32, 32, 64]) (fun _ => rfl) h521 h522)) (check_cut (c1 := [65504, 53152, 12224, 64]) (c2 := [65504, 53216, 12224, 64]) (h := [32, 32, 64, 64]) (fun _ => rfl) h523 (check_cut (c1 := [65504, 53216, 12192, 64]) (c2 := [65504, 53216, 12256, 64]) (h := [32, 32, 32, 64]) (fun _ => rfl) (check_cut (c1 := [65504, 53216, 12192, 32]) (c2 := [65504, 53216, 12192, 96]) (h := [32, 32, 32, 32]) (fun _ => rfl) (check_cut (c1 := [65488, 53216, 12192, 32]) (c2 := [65520, 53216, 12192, 32]) (h := [16, 32, 32, 32]) (fun _ => rfl) h524 h525) h526) (check_cut (c1 := [65504, 53216, 12256, 32]) (c2 := [65504, 53216, 12256, 96]) (h := [32, 32, 32, 32]) (fun _ => rfl) (check_cut (c1 := [65488, 53216, 12256, 32]) (c2 := [65520, 53216, 12256, 32]) (h := [16, 32, 32, 32]) (fun _ => rfl) h527 h528) h529)))) h530)))) h531)))) h532)))) h533)))) h534)))) h535) (check_cut (c1 := [63488, 51200, 14336, 2048]) (c2 := [63488, 51200, 14336, 6144]) (h := [2048, 2048, 2048, 2048]) (fun _ => rfl) (check_cut (c1 := [62464, 51200, 14336, 2048]) (c2 := [64512, 51200, 14336, 2048]) (h := [1024, 2048, 2048, 2048]) (fun _ => rfl) h536 (check_cut (c1 := [64512, 50176, 14336, 2048]) (c2 := [64512, 52224, 14336, 2048]) (h := [1024, 1024, 2048, 2048]) (fun _ => rfl) h537 (check_cut (c1 := [64512, 52224, 13312, 2048]) (c2 := [64512, 52224, 15360, 2048]) (h := [1024, 1024, 1024, 2048]) (fun _ => rfl) (check_cut (c1 := [64512, 52224, 13312, 1024]) (c2 := [64512, 52224, 13312, 3072]) (h := [1024, 1024, 1024, 1024]) (fun _ => rfl) (check_cut (c1 := [64000, 52224, 13312, 1024]) (c2 := [65024, 52224, 13312, 1024]) (h := [512, 1024, 1024, 1024]) (fun _ => rfl) h538 (check_cut (c1 := [65024, 51712, 13312, 1024]) (c2 := [65024, 52736, 13312, 1024]) (h := [512, 512, 1024, 1024]) (fun _ => rfl) h539 (check_cut (c1 := [65024, 52736, 12800, 1024]) (c2 := [65024, 52736, 13824, 1024]) (h := [512, 512, 512, 1024]) (fun _ => rfl) (check_cut (c1 := [65024, 52736, 12800, 512]) (c2 := [65024, 52736, 12800, 1536]) (h := [512, 512, 512, 512]) (fun _ => rfl) (check_cut (c1 := [64768, 52736, 12800, 512]) (c2 := [65280, 52736, 12800, 512]) (h := [256, 512, 512, 512]) (fun _ => rfl) h540 (check_cut (c1 := [65280, 52480, 12800, 512]) (c2 := [65280, 52992, 12800, 512]) (h := [256, 256, 512, 512]) (fun _ => rfl) h541 (check_cut (c1 := [65280, 52992, 12544, 512]) (c2 := [65280, 52992, 13056, 512]) (h := [256, 256, 256, 512]) (fun _ => rfl) (check_cut (c1 := [65280, 52992, 12544, 256]) (c2 := [65280, 52992, 12544, 768]) (h := [256, 256, 256, 256]) (fun _ => rfl) (check_cut (c1 := [65152, 52992, 12544, 256]) (c2 := [65408, 52992, 12544, 256]) (h := [128, 256, 256, 256]) (fun _ => rfl) h542 (check_cut (c1 := [65408, 52864, 12544, 256]) (c2 := [65408, 53120, 12544, 256]) (h := [128, 128, 256, 256]) (fun _ => rfl) h543 (check_cut (c1 := [65408, 53120, 12416, 256]) (c2 := [65408, 53120, 12672, 256]) (h := [128, 128, 128, 256]) (fun _ => rfl) (check_cut (c1 := [65408, 53120, 12416, 128]) (c2 := [65408, 53120, 12416, 384]) (h := [128, 128, 128, 128]) (fun _ => rfl) (check_cut (c1 := [65344, 53120, 12416, 128]) (c2 := [65472, 53120, 12416, 128]) (h := [64, 128, 128, 128]) (fun _ => rfl) h544 (check_cut (c1 := [65472, 53056, 12416, 128]) (c2 := [65472, 53184, 12416, 128]) (h := [64, 64, 128, 128]) (fun _ => rfl) h545 (check_cut (c1 := [65472, 53184, 12352, 128]) (c2 := [65472, 53184, 12480, 128]) (h := [64, 64, 64, 128]) (fun _ => rfl) h546 h547))) h548) h549))) h550) h551))) h552) h553))) h554) h555))) h556)) (check_cut (c1 := [63488, 55296, 10240, 4096]) (c2 := [63488, 55296, 14336, 4096]) (h := [2048, 2048, 2048, 4096]) (fun _ => rfl) (check_cut (c1 := [63488, 55296, 10240, 2048]) (c2 := [63488, 55296, 10240, 6144]) (h := [2048, 2048, 2048, 2048]) (fun _ => rfl) (check_cut (c1 := [62464, 55296, 10240, 2048]) (c2 := [64512, 55296, 10240, 2048]) (h := [1024, 2048, 2048, 2048]) (fun _ => rfl) h557 (check_cut (c1 := [64512, 54272, 10240, 2048]) (c2 := [64512, 56320, 10240, 2048]) (h := [1024, 1024, 2048, 2048]) (fun _ => rfl) (check_cut (c1 := [64512, 54272, 9216, 2048]) (c2 := [64512, 54272, 11264, 2048]) (h := [1024, 1024, 1024, 2048]) (fun _ => rfl) h558 (check_cut (c1 := [64512, 54272, 11264, 1024]) (c2 := [64512, 54272, 11264, 3072]) (h := [1024, 1024, 1024, 1024]) (fun _ => rfl) (check_cut (c1 := [64000, 54272, 11264, 1024]) (c2 := [65024, 54272, 11264, 1024]) (h := [512, 1024, 1024, 1024]) (fun _ => rfl) h559 (check_cut (c1 := [65024, 53760, 11264, 1024]) (c2 := [65024, 54784, 11264, 1024]) (h := [512, 512, 1024, 1024]) (fun _ => rfl) (check_cut (c1 := [65024, 53760, 10752, 1024]) (c2 := [65024, 53760, 11776, 1024]) (h := [512, 512, 512, 1024]) (fun _ => rfl) h560 (check_cut (c1 := [65024, 53760, 11776, 512]) (c2 := [65024, 53760, 11776, 1536]) (h := [512, 512, 512, 512]) (fun _ => rfl) (check_cut (c1 := [64768, 53760, 11776, 512]) (c2 := [65280, 53760, 11776, 512]) (h := [256, 512, 512, 512]) (fun _ => rfl) h561 (check_cut (c1 := [65280, 53504, 11776, 512]) (c2 := [65280, 54016, 11776, 512]) (h := [256, 256, 512, 512]) (fun _ => rfl) (check_cut (c1 := [65280, 53504, 11520, 512]) (c2 := [65280, 53504, 12032, 512]) (h := [256, 256, 256, 512]) (fun _ => rfl) h562 (check_cut (c1 := [65280, 53504, 12032, 256]) (c2 := [65280, 53504, 12032, 768]) (h := [256, 256, 256, 256]) (fun _ => rfl) (check_cut (c1 := [65152, 53504, 12032, 256]) (c2 := [65408, 53504, 12032, 256]) (h := [128, 256, 256, 256]) (fun _ => rfl) h563 (check_cut (c1 := [65408, 53376, 12032, 256]) (c2 := [65408, 53632, 12032, 256]) (h := [128, 128, 256, 256]) (fun _ => rfl) (check_cut (c1 := [65408, 53376, 11904, 256]) (c2 := [65408, 53376, 12160, 256]) (h := [128, 128, 128, 256]) (fun _ => rfl) h564 (check_cut (c1 := [65408, 53376, 12160, 128]) (c2 := [65408, 53376, 12160, 384]) (h := [128, 128, 128, 128]) (fun _ => rfl) (check_cut (c1 := [65344, 53376, 12160, 128]) (c2 := [65472, 53376, 12160, 128]) (h := [64, 128, 128, 128]) (fun _ => rfl) h565 (check_cut (c1 := [65472, 53312, 12160, 128]) (c2 := [65472, 53440, 12160, 128]) (h := [64, 64, 128, 128]) (fun _ => rfl) (check_cut (c1 := [65472, 53312, 12096, 128]) (c2 := [65472, 53312, 12224, 128]) (h := [64, 64, 64, 128]) (fun _ => rfl) h566 (check_cut (c1 := [65472, 53312, 12224, 64]) (c2 := [65472, 53312, 12224, 192]) (h := [64, 64, 64, 64]) (fun _ => rfl) (check_cut (c1 := [65440, 53312, 12224, 64]) (c2 := [65504, 53312, 12224, 64]) (h := [32, 64, 64, 64]) (fun _ => rfl) (check_cut (c1 := [65440, 53280, 12224, 64]) (c2 := [65440, 53344, 12224, 64]) (h := [32, 32, 64, 64]) (fun _ => rfl) (check_cut (c1 := [65440, 53280, 12192, 64]) (c2 := [65440, 53280, 12256, 64]) (h := [32, 32, 32, 64]) (fun _ => rfl) h567 h568) h569) (check_cut (c1 := [65504, 53280, 12224, 64]) (c2 := [65504, 53344, 12224, 64]) (h := [32, 32, 64, 64]) (fun _ => rfl) (check_cut (c1 := [65504, 53280, 12192, 64]) (c2 := [65504, 53280, 12256, 64]) (h := [32, 32, 32, 64]) (fun _ => rfl) (check_cut (c1 := [65504, 53280, 12192, 32]) (c2 := [65504, 53280, 12192, 96]) (h := [32, 32, 32, 32]) (fun _ => rfl) (check_cut (c1 := [65488, 53280, 12192, 32]) (c2 := [65520, 53280, 12192, 32]) (h := [16, 32, 32, 32]) (fun _ => rfl) h570 h571) h572) (check_cut (c1 := [65504, 53280, 12256, 32]) (c2 := [65504, 53280, 12256, 96]) (h := [32, 32, 32, 32]) (fun _ => rfl) (check_cut (c1 := [65488, 53280, 12256, 32]) (c2 := [65520, 53280, 12256, 32]) (h := [16, 32, 32, 32]) (fun _ => rfl) (check_cut (c1 := [65488, 53264, 12256, 32]) (c2 := [65488, 53296, 12256, 32]) (h := [16, 16, 32, 32]) (fun _ => rfl) (check_cut (c1 := [65488, 53264, 12240, 32]) (c2 := [65488, 53264, 12272, 32]) (h := [16, 16, 16, 32]) (fun _ => rfl) h573 h574) h575) (check_cut (c1 := [65520, 53264, 12256, 32]) (c2 := [65520, 53296, 12256, 32]) (h := [16, 16, 32, 32]) (fun _ => rfl) (check_cut (c1 := [65520, 53264, 12240, 32]) (c2 := [65520, 53264, 12272, 32]) (h := [16, 16, 16, 32]) (fun _ => rfl) (check_cut (c1 := [65520, 53264, 12240, 16]) (c2 := [65520, 53264, 12240, 48]) (h := [16, 16, 16, 16]) (fun _ => rfl) (check_cut (c1 := [65512, 53264, 12240, 16]) (c2 := [65528, 53264, 12240, 16]) (h := [8, 16, 16, 16]) (fun _ => rfl) h576 h577) h578) (check_cut (c1 := [65520, 53264, 12272, 16]) (c2 := [65520, 53264, 12272, 48]) (h := [16, 16, 16, 16]) (fun _ => rfl) (check_cut (c1 := [65512, 53264, 12272, 16]) (c2 := [65528, 53264, 12272, 16]) (h := [8, 16, 16, 16]) (fun _ => rfl) h579 h580) h581)) (check_cut (c1 := [65520, 53296, 12240, 32]) (c2 := [65520, 53296, 12272, 32]) (h := [16, 16, 16, 32]) (fun _ => rfl) h582 h583))) h584)) h585)) h586)) h587)) h588)) h589)) h590)) h591)) h592)) h593)) h594)) h595)) h596) (check_cut (c1 := [63488, 55296, 14336, 2048]) (c2 := [63488, 55296, 14336, 6144]) (h := [2048, 2048, 2048, 2048]) (fun _ => rfl) (check_cut (c1 := [62464, 55296, 14336, 2048]) (c2 := [64512, 55296, 14336, 2048]) (h := [1024, 2048, 2048, 2048]) (fun _ => rfl) h597 (check_cut (c1 := [64512, 54272, 14336, 2048]) (c2 := [64512, 56320, 14336, 2048]) (h := [1024, 1024, 2048, 2048]) (fun _ => rfl) (check_cut (c1 := [64512, 54272, 13312, 2048]) (c2 := [64512, 54272, 15360, 2048]) (h := [1024, 1024, 1024, 2048]) (fun _ => rfl) (check_cut (c1 := [64512, 54272, 13312, 1024]) (c2 := [64512, 54272, 13312, 3072]) (h := [1024, 1024, 1024, 1024]) (fun _ => rfl) (check_cut (c1 := [64000, 54272, 13312, 1024]) (c2 := [65024, 54272, 13312, 1024]) (h := [512, 1024, 1024, 1024]) (fun _ => rfl) h598 (check_cut (c1 := [65024, 53760, 13312, 1024]) (c2 := [65024, 54784, 13312, 1024]) (h := [512, 512, 1024, 1024]) (fun _ => rfl) (check_cut (c1 := [65024, 53760, 12800, 1024]) (c2 := [65024, 53760, 13824, 1024]) (h := [512, 512, 512, 1024]) (fun _ => rfl) (check_cut (c1 := [65024, 53760, 12800, 512]) (c2 := [65024, 53760, 12800, 1536]) (h := [512, 512, 512, 512]) (fun _ => rfl) (check_cut (c1 := [64768, 53760, 12800, 512]) (c2 := [65280, 53760, 12800, 512]) (h := [256, 512, 512, 512]) (fun _ => rfl) h599 (check_cut (c1 := [65280, 53504, 12800, 512]) (c2 := [65280, 54016, 12800, 512]) (h := [256, 256, 512, 512]) (fun _ => rfl) (check_cut (c1 := [65280, 53504, 12544, 512]) (c2 := [65280, 53504, 13056, 512]) (h := [256, 256, 256, 512]) (fun _ => rfl) (check_cut (c1 := [65280, 53504, 12544, 256]) (c2 := [65280, 53504, 12544, 768]) (h := [256, 256, 256, 256]) (fun _ => rfl) (check_cut (c1 := [65152, 53504, 12544, 256]) (c2 := [65408, 53504, 12544, 256]) (h := [128, 256, 256, 256]) (fun _ => rfl) h600 (check_cut (c1 := [65408, 53376, 12544, 256]) (c2 := [65408, 53632, 12544, 256]) (h := [128, 128, 256, 256]) (fun _ => rfl) (check_cut (c1 := [65408, 53376, 12416, 256]) (c2 := [65408, 53376, 12672, 256]) (h := [128, 128, 128, 256]) (fun _ => rfl) (check_cut (c1 := [65408, 53376, 12416, 128]) (c2 := [65408, 53376, 12416, 384]) (h := [128, 128, 128, 128]) (fun _ => rfl) (check_cut (c1 := [65344, 53376, 12416, 128]) (c2 := [65472, 53376, 12416, 128]) (h := [64, 128, 128, 128]) (fun _ => rfl) h601 (check_cut (c1 := [65472, 53312, 12416, 128]) (c2 := [65472, 53440, 12416, 128]) (h := [64, 64, 128, 128]) (fun _ => rfl) (check_cut (c1 := [65472, 53312, 12352, 128]) (c2 := [65472, 53312, 12480, 128]) (h := [64, 64, 64, 128]) (fun _ => rfl) (check_cut (c1 := [65472, 53312, 12352, 64]) (c2 := [65472, 53312, 12352, 192]) (h := [64, 64, 64, 64]) (fun _ => rfl) (check_cut (c1 := [65440, 53312, 12352, 64]) (c2 := [65504, 53312, 12352, 64]) (h := [32, 64, 64, 64]) (fun _ => rfl) h602 h603) h604) h605) h606)) h607) h608) h609)) h610) h611) h612)) h613) h614) h615)) h616) h617) h618)) h619)))) h620)) h621)) h622) (check_cut (c1 := [57344, 57344, 24576, 8192]) (c2 := [57344, 57344, 24576, 24576]) (h := [8192, 8192, 8192, 8192]) (fun _ => rfl) (check_cut (c1 := [53248, 57344, 24576, 8192]) (c2 := [61440, 57344, 24576, 8192]) (h := [4096, 8192, 8192, 8192]) (fun _ => rfl) h623 h624) h625)))) h626) (check_cut (c1 := [49152, 49152, 49152, 16384]) (c2 := [49152, 49152, 49152, 49152]) (h := [16384, 16384, 16384, 16384]) (fun _ => rfl) (check_cut (c1 := [40960, 49152, 49152, 16384]) (c2 := [57344, 49152, 49152, 16384]) (h := [8192, 16384, 16384, 16384]) (fun _ => rfl) (check_cut (c1 := [40960, 40960, 49152, 16384]) (c2 := [40960, 57344, 49152, 16384]) (h := [8192, 8192, 16384, 16384]) (fun _ => rfl) (check_cut (c1 := [40960, 40960, 40960, 16384]) (c2 := [40960, 40960, 57344, 16384]) (h := [8192, 8192, 8192, 16384]) (fun _ => rfl) (check_cut (c1 := [40960, 40960, 40960, 8192]) (c2 := [40960, 40960, 40960, 24576]) (h := [8192, 8192, 8192, 8192]) (fun _ => rfl) h627 h628) h629) h630) h631) h632))))

end FastNoise.RangeCheck.OuterSimplex4
