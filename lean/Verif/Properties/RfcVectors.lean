import Verif.Properties.Vectors

/-!
# Further test vectors of RFC 8032, section 7.4

Like those in `Verif.Properties.Vectors`, evaluated by the kernel. They are tests of the model, not proofs of properties.
-/

namespace Ed448.Vectors

open Alg Shake

/-- RFC 8032, section 7.4, "1 octet": public key, signature and verification. -/
theorem rfc_one_octet :
    ed448_derive_public shake256 (key 0xc4eab05d357007c632f3dbb48489924d552b08fe0c353a0d4a1f00acda2c463afbea67c5e8d2877c5e3bc397a659949ef8021e954e0a12274e) =
      .ok (key 0x43ba28f430cdff456ae531545f7ecd0ac834a55d9358c0372bfa0c6c6798c0866aea01eb00742802b8438ea4cb82169c235160627b4c3a9480) ∧
    ed448_sign shake256 (key 0xc4eab05d357007c632f3dbb48489924d552b08fe0c353a0d4a1f00acda2c463afbea67c5e8d2877c5e3bc397a659949ef8021e954e0a12274e) (hex 1 0x03) =
      .ok (signature 0x26b8f91727bd62897af15e41eb43c377efb9c610d48f2335cb0bd0087810f4352541b143c4b981b7e18f62de8ccdf633fc1bf037ab7cd779805e0dbcc0aae1cbcee1afb2e027df36bc04dcecbf154336c19f0af7e0a6472905e799f1953d2a0ff3348ab21aa4adafd1d234441cf807c03a00) ∧
    ed448_verify shake256 (hex 57 0x43ba28f430cdff456ae531545f7ecd0ac834a55d9358c0372bfa0c6c6798c0866aea01eb00742802b8438ea4cb82169c235160627b4c3a9480)
      (hex 114 0x26b8f91727bd62897af15e41eb43c377efb9c610d48f2335cb0bd0087810f4352541b143c4b981b7e18f62de8ccdf633fc1bf037ab7cd779805e0dbcc0aae1cbcee1afb2e027df36bc04dcecbf154336c19f0af7e0a6472905e799f1953d2a0ff3348ab21aa4adafd1d234441cf807c03a00)
      (hex 1 0x03) = .ok (.ok true) :=
  ⟨derive (by decide +kernel) (by decide +kernel), signs (by decide +kernel) (by decide +kernel), verifies (by decide +kernel) (by decide +kernel)⟩

/-- RFC 8032, section 7.4, "11 octets": public key, signature and verification. -/
theorem rfc_eleven_octets :
    ed448_derive_public shake256 (key 0xcd23d24f714274e744343237b93290f511f6425f98e64459ff203e8985083ffdf60500553abc0e05cd02184bdb89c4ccd67e187951267eb328) =
      .ok (key 0xdcea9e78f35a1bf3499a831b10b86c90aac01cd84b67a0109b55a36e9328b1e365fce161d71ce7131a543ea4cb5f7e9f1d8b00696447001400) ∧
    ed448_sign shake256 (key 0xcd23d24f714274e744343237b93290f511f6425f98e64459ff203e8985083ffdf60500553abc0e05cd02184bdb89c4ccd67e187951267eb328) (hex 11 0x0c3e544074ec63b0265e0c) =
      .ok (signature 0x1f0a8888ce25e8d458a21130879b840a9089d999aaba039eaf3e3afa090a09d389dba82c4ff2ae8ac5cdfb7c55e94d5d961a29fe0109941e00b8dbdeea6d3b051068df7254c0cdc129cbe62db2dc957dbb47b51fd3f213fb8698f064774250a5028961c9bf8ffd973fe5d5c206492b140e00) ∧
    ed448_verify shake256 (hex 57 0xdcea9e78f35a1bf3499a831b10b86c90aac01cd84b67a0109b55a36e9328b1e365fce161d71ce7131a543ea4cb5f7e9f1d8b00696447001400)
      (hex 114 0x1f0a8888ce25e8d458a21130879b840a9089d999aaba039eaf3e3afa090a09d389dba82c4ff2ae8ac5cdfb7c55e94d5d961a29fe0109941e00b8dbdeea6d3b051068df7254c0cdc129cbe62db2dc957dbb47b51fd3f213fb8698f064774250a5028961c9bf8ffd973fe5d5c206492b140e00)
      (hex 11 0x0c3e544074ec63b0265e0c) = .ok (.ok true) :=
  ⟨derive (by decide +kernel) (by decide +kernel), signs (by decide +kernel) (by decide +kernel), verifies (by decide +kernel) (by decide +kernel)⟩

/-- RFC 8032, section 7.4, "12 octets": public key, signature and verification. -/
theorem rfc_twelve_octets :
    ed448_derive_public shake256 (key 0x258cdd4ada32ed9c9ff54e63756ae582fb8fab2ac721f2c8e676a72768513d939f63dddb55609133f29adf86ec9929dccb52c1c5fd2ff7e21b) =
      .ok (key 0x3ba16da0c6f2cc1f30187740756f5e798d6bc5fc015d7c63cc9510ee3fd44adc24d8e968b6e46e6f94d19b945361726bd75e149ef09817f580) ∧
    ed448_sign shake256 (key 0x258cdd4ada32ed9c9ff54e63756ae582fb8fab2ac721f2c8e676a72768513d939f63dddb55609133f29adf86ec9929dccb52c1c5fd2ff7e21b) (hex 12 0x64a65f3cdedcdd66811e2915) =
      .ok (signature 0x7eeeab7c4e50fb799b418ee5e3197ff6bf15d43a14c34389b59dd1a7b1b85b4ae90438aca634bea45e3a2695f1270f07fdcdf7c62b8efeaf00b45c2c96ba457eb1a8bf075a3db28e5c24f6b923ed4ad747c3c9e03c7079efb87cb110d3a99861e72003cbae6d6b8b827e4e6c143064ff3c00) ∧
    ed448_verify shake256 (hex 57 0x3ba16da0c6f2cc1f30187740756f5e798d6bc5fc015d7c63cc9510ee3fd44adc24d8e968b6e46e6f94d19b945361726bd75e149ef09817f580)
      (hex 114 0x7eeeab7c4e50fb799b418ee5e3197ff6bf15d43a14c34389b59dd1a7b1b85b4ae90438aca634bea45e3a2695f1270f07fdcdf7c62b8efeaf00b45c2c96ba457eb1a8bf075a3db28e5c24f6b923ed4ad747c3c9e03c7079efb87cb110d3a99861e72003cbae6d6b8b827e4e6c143064ff3c00)
      (hex 12 0x64a65f3cdedcdd66811e2915) = .ok (.ok true) :=
  ⟨derive (by decide +kernel) (by decide +kernel), signs (by decide +kernel) (by decide +kernel), verifies (by decide +kernel) (by decide +kernel)⟩

/-- RFC 8032, section 7.4, "13 octets": public key, signature and verification. -/
theorem rfc_thirteen_octets :
    ed448_derive_public shake256 (key 0x7ef4e84544236752fbb56b8f31a23a10e42814f5f55ca037cdcc11c64c9a3b2949c1bb60700314611732a6c2fea98eebc0266a11a93970100e) =
      .ok (key 0xb3da079b0aa493a5772029f0467baebee5a8112d9d3a22532361da294f7bb3815c5dc59e176b4d9f381ca0938e13c6c07b174be65dfa578e80) ∧
    ed448_sign shake256 (key 0x7ef4e84544236752fbb56b8f31a23a10e42814f5f55ca037cdcc11c64c9a3b2949c1bb60700314611732a6c2fea98eebc0266a11a93970100e) (hex 13 0x64a65f3cdedcdd66811e2915e7) =
      .ok (signature 0x6a12066f55331b6c22acd5d5bfc5d71228fbda80ae8dec26bdd306743c5027cb4890810c162c027468675ecf645a83176c0d7323a2ccde2d80efe5a1268e8aca1d6fbc194d3f77c44986eb4ab4177919ad8bec33eb47bbb5fc6e28196fd1caf56b4e7e0ba5519234d047155ac727a1053100) ∧
    ed448_verify shake256 (hex 57 0xb3da079b0aa493a5772029f0467baebee5a8112d9d3a22532361da294f7bb3815c5dc59e176b4d9f381ca0938e13c6c07b174be65dfa578e80)
      (hex 114 0x6a12066f55331b6c22acd5d5bfc5d71228fbda80ae8dec26bdd306743c5027cb4890810c162c027468675ecf645a83176c0d7323a2ccde2d80efe5a1268e8aca1d6fbc194d3f77c44986eb4ab4177919ad8bec33eb47bbb5fc6e28196fd1caf56b4e7e0ba5519234d047155ac727a1053100)
      (hex 13 0x64a65f3cdedcdd66811e2915e7) = .ok (.ok true) :=
  ⟨derive (by decide +kernel) (by decide +kernel), signs (by decide +kernel) (by decide +kernel), verifies (by decide +kernel) (by decide +kernel)⟩

end Ed448.Vectors
