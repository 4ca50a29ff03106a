import Verif.Vectors.MultiRounds

/-!
# Test vectors of the repository: the prover of the multipoint argument

`multiproof_consistency` of `/repo/ipa-multipoint/src/multiproof.rs`: the prover of the model writes the bytes which the test expects.
-/

set_option autoImplicit false

namespace Verif.Vectors
open Proof Bander Ipa Wire
open scoped Classical

def multiPolyA : List ℕ := [
  0x26c2e080d27310f7b653d89a3a5146ce6f2ca4a581da1eaaf382403aece0721,
  0x258cc97ccbdf786ff8a139d5687ebc97fbb33f8055cb4db59be62e3915796e9,
  0x2456b278c54bdfe83aee9b1096ac32618839da5b29bc7cc0444a1c373e126b1,
  0x23209b74beb847607d3bfc4bc4d9a82b14c07535fdadabcaecae0a3566ab679,
  0x21ea8470b824aed8bf895d86f3071df4a1471010d19edad59511f8338f44641,
  0x20b46d6cb191165101d6bec2213493be2dcdaaeba59009e03d75e631b7dd609,
  0x1f7e5668aafd7dc944241ffd4f620987ba5445c6798138eae5d9d42fe0765d1,
  0x1e483f64a469e541867181387d8f7f5146dae0a14d7267f58e3dc22e090f599,
  0x1d1228609dd64cb9c8bee273abbcf51ad3617b7c2163970036a1b02c31a8561,
  0x1bdc115c9742b4320b0c43aed9ea6ae45fe81656f554c60adf059e2a5a41529,
  0x1aa5fa5890af1baa4d59a4ea0817e0adec6eb131c945f51587698c2882da4f1,
  0x196fe3548a1b83228fa706253645567778f54c0c9d3724202fcd7a26ab734b9,
  0x1839cc508387ea9ad1f467606472cc41057be6e77128532ad8316824d40c481,
  0x1703b54c7cf452131441c89b92a0420a920281c24519823580955622fca5449,
  0x15cd9e487660b98b568f29d6c0cdb7d41e891c9d190ab14028f94421253e411,
  0x149787446fcd210398dc8b11eefb2d9dab0fb777ecfbe04ad15d321f4dd73d9,
  0x136170406939887bdb29ec4d1d28a36737965252c0ed0f5579c1201d76703a1,
  0x122b593c62a5eff41d774d884b561930c41ced2d94de3e6022250e1b9f09369,
  0x10f542385c12576c5fc4aec379838efa50a3880868cf6d6aca88fc19c7a2331,
  0xfbf2b34557ebee4a2120ffea7b104c3dd2a22e33cc09c7572ecea17f03b2f9,
  0xe8914304eeb265ce45f7139d5de7a8d69b0bdbe10b1cb801b50d81618d42c1,
  0xd52fd2c48578dd526acd275040bf056f6375898e4a2fa8ac3b4c614416d289,
  0xc1ce62841c3f54d68fa33b03239662082bdf373b89429956c18b4126a06251,
  0xae6cf243b305cc5ab4794eb6066dbea0f448e4e8c8558a0147ca210929f219,
  0x9b0b820349cc43ded94f6268e9451b39bcb2929607687aabce0900ebb381e1,
  0x87aa11c2e092bb62fe25761bcc1c77d2851c4043467b6b565447e0ce3d11a9,
  0x7448a182775932e722fb89ceaef3d46b4d85edf0858e5c00da86c0b0c6a171,
  0x60e731420e1faa6b47d19d8191cb310415ef9b9dc4a14cab60c5a093503139,
  0x4d85c101a4e621ef6ca7b13474a28d9cde59494b03b43d55e7048075d9c101,
  0x3a2450c13bac9973917dc4e75779ea35a6c2f6f842c72e006d4360586350c9,
  0x26c2e080d27310f7b653d89a3a5146ce6f2ca4a581da1eaaf382403aece091,
  0x136170406939887bdb29ec4d1d28a36737965252c0ed0f5579c1201d767059,
  0x26c2e080d27310f7b653d89a3a5146ce6f2ca4a581da1eaaf382403aece0721,
  0x258cc97ccbdf786ff8a139d5687ebc97fbb33f8055cb4db59be62e3915796e9,
  0x2456b278c54bdfe83aee9b1096ac32618839da5b29bc7cc0444a1c373e126b1,
  0x23209b74beb847607d3bfc4bc4d9a82b14c07535fdadabcaecae0a3566ab679,
  0x21ea8470b824aed8bf895d86f3071df4a1471010d19edad59511f8338f44641,
  0x20b46d6cb191165101d6bec2213493be2dcdaaeba59009e03d75e631b7dd609,
  0x1f7e5668aafd7dc944241ffd4f620987ba5445c6798138eae5d9d42fe0765d1,
  0x1e483f64a469e541867181387d8f7f5146dae0a14d7267f58e3dc22e090f599,
  0x1d1228609dd64cb9c8bee273abbcf51ad3617b7c2163970036a1b02c31a8561,
  0x1bdc115c9742b4320b0c43aed9ea6ae45fe81656f554c60adf059e2a5a41529,
  0x1aa5fa5890af1baa4d59a4ea0817e0adec6eb131c945f51587698c2882da4f1,
  0x196fe3548a1b83228fa706253645567778f54c0c9d3724202fcd7a26ab734b9,
  0x1839cc508387ea9ad1f467606472cc41057be6e77128532ad8316824d40c481,
  0x1703b54c7cf452131441c89b92a0420a920281c24519823580955622fca5449,
  0x15cd9e487660b98b568f29d6c0cdb7d41e891c9d190ab14028f94421253e411,
  0x149787446fcd210398dc8b11eefb2d9dab0fb777ecfbe04ad15d321f4dd73d9,
  0x136170406939887bdb29ec4d1d28a36737965252c0ed0f5579c1201d76703a1,
  0x122b593c62a5eff41d774d884b561930c41ced2d94de3e6022250e1b9f09369,
  0x10f542385c12576c5fc4aec379838efa50a3880868cf6d6aca88fc19c7a2331,
  0xfbf2b34557ebee4a2120ffea7b104c3dd2a22e33cc09c7572ecea17f03b2f9,
  0xe8914304eeb265ce45f7139d5de7a8d69b0bdbe10b1cb801b50d81618d42c1,
  0xd52fd2c48578dd526acd275040bf056f6375898e4a2fa8ac3b4c614416d289,
  0xc1ce62841c3f54d68fa33b03239662082bdf373b89429956c18b4126a06251,
  0xae6cf243b305cc5ab4794eb6066dbea0f448e4e8c8558a0147ca210929f219,
  0x9b0b820349cc43ded94f6268e9451b39bcb2929607687aabce0900ebb381e1,
  0x87aa11c2e092bb62fe25761bcc1c77d2851c4043467b6b565447e0ce3d11a9,
  0x7448a182775932e722fb89ceaef3d46b4d85edf0858e5c00da86c0b0c6a171,
  0x60e731420e1faa6b47d19d8191cb310415ef9b9dc4a14cab60c5a093503139,
  0x4d85c101a4e621ef6ca7b13474a28d9cde59494b03b43d55e7048075d9c101,
  0x3a2450c13bac9973917dc4e75779ea35a6c2f6f842c72e006d4360586350c9,
  0x26c2e080d27310f7b653d89a3a5146ce6f2ca4a581da1eaaf382403aece091,
  0x136170406939887bdb29ec4d1d28a36737965252c0ed0f5579c1201d767059,
  0x26c2e080d27310f7b653d89a3a5146ce6f2ca4a581da1eaaf382403aece0721,
  0x258cc97ccbdf786ff8a139d5687ebc97fbb33f8055cb4db59be62e3915796e9,
  0x2456b278c54bdfe83aee9b1096ac32618839da5b29bc7cc0444a1c373e126b1,
  0x23209b74beb847607d3bfc4bc4d9a82b14c07535fdadabcaecae0a3566ab679,
  0x21ea8470b824aed8bf895d86f3071df4a1471010d19edad59511f8338f44641,
  0x20b46d6cb191165101d6bec2213493be2dcdaaeba59009e03d75e631b7dd609,
  0x1f7e5668aafd7dc944241ffd4f620987ba5445c6798138eae5d9d42fe0765d1,
  0x1e483f64a469e541867181387d8f7f5146dae0a14d7267f58e3dc22e090f599,
  0x1d1228609dd64cb9c8bee273abbcf51ad3617b7c2163970036a1b02c31a8561,
  0x1bdc115c9742b4320b0c43aed9ea6ae45fe81656f554c60adf059e2a5a41529,
  0x1aa5fa5890af1baa4d59a4ea0817e0adec6eb131c945f51587698c2882da4f1,
  0x196fe3548a1b83228fa706253645567778f54c0c9d3724202fcd7a26ab734b9,
  0x1839cc508387ea9ad1f467606472cc41057be6e77128532ad8316824d40c481,
  0x1703b54c7cf452131441c89b92a0420a920281c24519823580955622fca5449,
  0x15cd9e487660b98b568f29d6c0cdb7d41e891c9d190ab14028f94421253e411,
  0x149787446fcd210398dc8b11eefb2d9dab0fb777ecfbe04ad15d321f4dd73d9,
  0x136170406939887bdb29ec4d1d28a36737965252c0ed0f5579c1201d76703a1,
  0x122b593c62a5eff41d774d884b561930c41ced2d94de3e6022250e1b9f09369,
  0x10f542385c12576c5fc4aec379838efa50a3880868cf6d6aca88fc19c7a2331,
  0xfbf2b34557ebee4a2120ffea7b104c3dd2a22e33cc09c7572ecea17f03b2f9,
  0xe8914304eeb265ce45f7139d5de7a8d69b0bdbe10b1cb801b50d81618d42c1,
  0xd52fd2c48578dd526acd275040bf056f6375898e4a2fa8ac3b4c614416d289,
  0xc1ce62841c3f54d68fa33b03239662082bdf373b89429956c18b4126a06251,
  0xae6cf243b305cc5ab4794eb6066dbea0f448e4e8c8558a0147ca210929f219,
  0x9b0b820349cc43ded94f6268e9451b39bcb2929607687aabce0900ebb381e1,
  0x87aa11c2e092bb62fe25761bcc1c77d2851c4043467b6b565447e0ce3d11a9,
  0x7448a182775932e722fb89ceaef3d46b4d85edf0858e5c00da86c0b0c6a171,
  0x60e731420e1faa6b47d19d8191cb310415ef9b9dc4a14cab60c5a093503139,
  0x4d85c101a4e621ef6ca7b13474a28d9cde59494b03b43d55e7048075d9c101,
  0x3a2450c13bac9973917dc4e75779ea35a6c2f6f842c72e006d4360586350c9,
  0x26c2e080d27310f7b653d89a3a5146ce6f2ca4a581da1eaaf382403aece091,
  0x136170406939887bdb29ec4d1d28a36737965252c0ed0f5579c1201d767059,
  0x26c2e080d27310f7b653d89a3a5146ce6f2ca4a581da1eaaf382403aece0721,
  0x258cc97ccbdf786ff8a139d5687ebc97fbb33f8055cb4db59be62e3915796e9,
  0x2456b278c54bdfe83aee9b1096ac32618839da5b29bc7cc0444a1c373e126b1,
  0x23209b74beb847607d3bfc4bc4d9a82b14c07535fdadabcaecae0a3566ab679,
  0x21ea8470b824aed8bf895d86f3071df4a1471010d19edad59511f8338f44641,
  0x20b46d6cb191165101d6bec2213493be2dcdaaeba59009e03d75e631b7dd609,
  0x1f7e5668aafd7dc944241ffd4f620987ba5445c6798138eae5d9d42fe0765d1,
  0x1e483f64a469e541867181387d8f7f5146dae0a14d7267f58e3dc22e090f599,
  0x1d1228609dd64cb9c8bee273abbcf51ad3617b7c2163970036a1b02c31a8561,
  0x1bdc115c9742b4320b0c43aed9ea6ae45fe81656f554c60adf059e2a5a41529,
  0x1aa5fa5890af1baa4d59a4ea0817e0adec6eb131c945f51587698c2882da4f1,
  0x196fe3548a1b83228fa706253645567778f54c0c9d3724202fcd7a26ab734b9,
  0x1839cc508387ea9ad1f467606472cc41057be6e77128532ad8316824d40c481,
  0x1703b54c7cf452131441c89b92a0420a920281c24519823580955622fca5449,
  0x15cd9e487660b98b568f29d6c0cdb7d41e891c9d190ab14028f94421253e411,
  0x149787446fcd210398dc8b11eefb2d9dab0fb777ecfbe04ad15d321f4dd73d9,
  0x136170406939887bdb29ec4d1d28a36737965252c0ed0f5579c1201d76703a1,
  0x122b593c62a5eff41d774d884b561930c41ced2d94de3e6022250e1b9f09369,
  0x10f542385c12576c5fc4aec379838efa50a3880868cf6d6aca88fc19c7a2331,
  0xfbf2b34557ebee4a2120ffea7b104c3dd2a22e33cc09c7572ecea17f03b2f9,
  0xe8914304eeb265ce45f7139d5de7a8d69b0bdbe10b1cb801b50d81618d42c1,
  0xd52fd2c48578dd526acd275040bf056f6375898e4a2fa8ac3b4c614416d289,
  0xc1ce62841c3f54d68fa33b03239662082bdf373b89429956c18b4126a06251,
  0xae6cf243b305cc5ab4794eb6066dbea0f448e4e8c8558a0147ca210929f219,
  0x9b0b820349cc43ded94f6268e9451b39bcb2929607687aabce0900ebb381e1,
  0x87aa11c2e092bb62fe25761bcc1c77d2851c4043467b6b565447e0ce3d11a9,
  0x7448a182775932e722fb89ceaef3d46b4d85edf0858e5c00da86c0b0c6a171,
  0x60e731420e1faa6b47d19d8191cb310415ef9b9dc4a14cab60c5a093503139,
  0x4d85c101a4e621ef6ca7b13474a28d9cde59494b03b43d55e7048075d9c101,
  0x3a2450c13bac9973917dc4e75779ea35a6c2f6f842c72e006d4360586350c9,
  0x26c2e080d27310f7b653d89a3a5146ce6f2ca4a581da1eaaf382403aece091,
  0x136170406939887bdb29ec4d1d28a36737965252c0ed0f5579c1201d767059,
  0x26c2e080d27310f7b653d89a3a5146ce6f2ca4a581da1eaaf382403aece0721,
  0x258cc97ccbdf786ff8a139d5687ebc97fbb33f8055cb4db59be62e3915796e9,
  0x2456b278c54bdfe83aee9b1096ac32618839da5b29bc7cc0444a1c373e126b1,
  0x23209b74beb847607d3bfc4bc4d9a82b14c07535fdadabcaecae0a3566ab679,
  0x21ea8470b824aed8bf895d86f3071df4a1471010d19edad59511f8338f44641,
  0x20b46d6cb191165101d6bec2213493be2dcdaaeba59009e03d75e631b7dd609,
  0x1f7e5668aafd7dc944241ffd4f620987ba5445c6798138eae5d9d42fe0765d1,
  0x1e483f64a469e541867181387d8f7f5146dae0a14d7267f58e3dc22e090f599,
  0x1d1228609dd64cb9c8bee273abbcf51ad3617b7c2163970036a1b02c31a8561,
  0x1bdc115c9742b4320b0c43aed9ea6ae45fe81656f554c60adf059e2a5a41529,
  0x1aa5fa5890af1baa4d59a4ea0817e0adec6eb131c945f51587698c2882da4f1,
  0x196fe3548a1b83228fa706253645567778f54c0c9d3724202fcd7a26ab734b9,
  0x1839cc508387ea9ad1f467606472cc41057be6e77128532ad8316824d40c481,
  0x1703b54c7cf452131441c89b92a0420a920281c24519823580955622fca5449,
  0x15cd9e487660b98b568f29d6c0cdb7d41e891c9d190ab14028f94421253e411,
  0x149787446fcd210398dc8b11eefb2d9dab0fb777ecfbe04ad15d321f4dd73d9,
  0x136170406939887bdb29ec4d1d28a36737965252c0ed0f5579c1201d76703a1,
  0x122b593c62a5eff41d774d884b561930c41ced2d94de3e6022250e1b9f09369,
  0x10f542385c12576c5fc4aec379838efa50a3880868cf6d6aca88fc19c7a2331,
  0xfbf2b34557ebee4a2120ffea7b104c3dd2a22e33cc09c7572ecea17f03b2f9,
  0xe8914304eeb265ce45f7139d5de7a8d69b0bdbe10b1cb801b50d81618d42c1,
  0xd52fd2c48578dd526acd275040bf056f6375898e4a2fa8ac3b4c614416d289,
  0xc1ce62841c3f54d68fa33b03239662082bdf373b89429956c18b4126a06251,
  0xae6cf243b305cc5ab4794eb6066dbea0f448e4e8c8558a0147ca210929f219,
  0x9b0b820349cc43ded94f6268e9451b39bcb2929607687aabce0900ebb381e1,
  0x87aa11c2e092bb62fe25761bcc1c77d2851c4043467b6b565447e0ce3d11a9,
  0x7448a182775932e722fb89ceaef3d46b4d85edf0858e5c00da86c0b0c6a171,
  0x60e731420e1faa6b47d19d8191cb310415ef9b9dc4a14cab60c5a093503139,
  0x4d85c101a4e621ef6ca7b13474a28d9cde59494b03b43d55e7048075d9c101,
  0x3a2450c13bac9973917dc4e75779ea35a6c2f6f842c72e006d4360586350c9,
  0x26c2e080d27310f7b653d89a3a5146ce6f2ca4a581da1eaaf382403aece091,
  0x136170406939887bdb29ec4d1d28a36737965252c0ed0f5579c1201d767059,
  0x26c2e080d27310f7b653d89a3a5146ce6f2ca4a581da1eaaf382403aece0721,
  0x258cc97ccbdf786ff8a139d5687ebc97fbb33f8055cb4db59be62e3915796e9,
  0x2456b278c54bdfe83aee9b1096ac32618839da5b29bc7cc0444a1c373e126b1,
  0x23209b74beb847607d3bfc4bc4d9a82b14c07535fdadabcaecae0a3566ab679,
  0x21ea8470b824aed8bf895d86f3071df4a1471010d19edad59511f8338f44641,
  0x20b46d6cb191165101d6bec2213493be2dcdaaeba59009e03d75e631b7dd609,
  0x1f7e5668aafd7dc944241ffd4f620987ba5445c6798138eae5d9d42fe0765d1,
  0x1e483f64a469e541867181387d8f7f5146dae0a14d7267f58e3dc22e090f599,
  0x1d1228609dd64cb9c8bee273abbcf51ad3617b7c2163970036a1b02c31a8561,
  0x1bdc115c9742b4320b0c43aed9ea6ae45fe81656f554c60adf059e2a5a41529,
  0x1aa5fa5890af1baa4d59a4ea0817e0adec6eb131c945f51587698c2882da4f1,
  0x196fe3548a1b83228fa706253645567778f54c0c9d3724202fcd7a26ab734b9,
  0x1839cc508387ea9ad1f467606472cc41057be6e77128532ad8316824d40c481,
  0x1703b54c7cf452131441c89b92a0420a920281c24519823580955622fca5449,
  0x15cd9e487660b98b568f29d6c0cdb7d41e891c9d190ab14028f94421253e411,
  0x149787446fcd210398dc8b11eefb2d9dab0fb777ecfbe04ad15d321f4dd73d9,
  0x136170406939887bdb29ec4d1d28a36737965252c0ed0f5579c1201d76703a1,
  0x122b593c62a5eff41d774d884b561930c41ced2d94de3e6022250e1b9f09369,
  0x10f542385c12576c5fc4aec379838efa50a3880868cf6d6aca88fc19c7a2331,
  0xfbf2b34557ebee4a2120ffea7b104c3dd2a22e33cc09c7572ecea17f03b2f9,
  0xe8914304eeb265ce45f7139d5de7a8d69b0bdbe10b1cb801b50d81618d42c1,
  0xd52fd2c48578dd526acd275040bf056f6375898e4a2fa8ac3b4c614416d289,
  0xc1ce62841c3f54d68fa33b03239662082bdf373b89429956c18b4126a06251,
  0xae6cf243b305cc5ab4794eb6066dbea0f448e4e8c8558a0147ca210929f219,
  0x9b0b820349cc43ded94f6268e9451b39bcb2929607687aabce0900ebb381e1,
  0x87aa11c2e092bb62fe25761bcc1c77d2851c4043467b6b565447e0ce3d11a9,
  0x7448a182775932e722fb89ceaef3d46b4d85edf0858e5c00da86c0b0c6a171,
  0x60e731420e1faa6b47d19d8191cb310415ef9b9dc4a14cab60c5a093503139,
  0x4d85c101a4e621ef6ca7b13474a28d9cde59494b03b43d55e7048075d9c101,
  0x3a2450c13bac9973917dc4e75779ea35a6c2f6f842c72e006d4360586350c9,
  0x26c2e080d27310f7b653d89a3a5146ce6f2ca4a581da1eaaf382403aece091,
  0x136170406939887bdb29ec4d1d28a36737965252c0ed0f5579c1201d767059,
  0x26c2e080d27310f7b653d89a3a5146ce6f2ca4a581da1eaaf382403aece0721,
  0x258cc97ccbdf786ff8a139d5687ebc97fbb33f8055cb4db59be62e3915796e9,
  0x2456b278c54bdfe83aee9b1096ac32618839da5b29bc7cc0444a1c373e126b1,
  0x23209b74beb847607d3bfc4bc4d9a82b14c07535fdadabcaecae0a3566ab679,
  0x21ea8470b824aed8bf895d86f3071df4a1471010d19edad59511f8338f44641,
  0x20b46d6cb191165101d6bec2213493be2dcdaaeba59009e03d75e631b7dd609,
  0x1f7e5668aafd7dc944241ffd4f620987ba5445c6798138eae5d9d42fe0765d1,
  0x1e483f64a469e541867181387d8f7f5146dae0a14d7267f58e3dc22e090f599,
  0x1d1228609dd64cb9c8bee273abbcf51ad3617b7c2163970036a1b02c31a8561,
  0x1bdc115c9742b4320b0c43aed9ea6ae45fe81656f554c60adf059e2a5a41529,
  0x1aa5fa5890af1baa4d59a4ea0817e0adec6eb131c945f51587698c2882da4f1,
  0x196fe3548a1b83228fa706253645567778f54c0c9d3724202fcd7a26ab734b9,
  0x1839cc508387ea9ad1f467606472cc41057be6e77128532ad8316824d40c481,
  0x1703b54c7cf452131441c89b92a0420a920281c24519823580955622fca5449,
  0x15cd9e487660b98b568f29d6c0cdb7d41e891c9d190ab14028f94421253e411,
  0x149787446fcd210398dc8b11eefb2d9dab0fb777ecfbe04ad15d321f4dd73d9,
  0x136170406939887bdb29ec4d1d28a36737965252c0ed0f5579c1201d76703a1,
  0x122b593c62a5eff41d774d884b561930c41ced2d94de3e6022250e1b9f09369,
  0x10f542385c12576c5fc4aec379838efa50a3880868cf6d6aca88fc19c7a2331,
  0xfbf2b34557ebee4a2120ffea7b104c3dd2a22e33cc09c7572ecea17f03b2f9,
  0xe8914304eeb265ce45f7139d5de7a8d69b0bdbe10b1cb801b50d81618d42c1,
  0xd52fd2c48578dd526acd275040bf056f6375898e4a2fa8ac3b4c614416d289,
  0xc1ce62841c3f54d68fa33b03239662082bdf373b89429956c18b4126a06251,
  0xae6cf243b305cc5ab4794eb6066dbea0f448e4e8c8558a0147ca210929f219,
  0x9b0b820349cc43ded94f6268e9451b39bcb2929607687aabce0900ebb381e1,
  0x87aa11c2e092bb62fe25761bcc1c77d2851c4043467b6b565447e0ce3d11a9,
  0x7448a182775932e722fb89ceaef3d46b4d85edf0858e5c00da86c0b0c6a171,
  0x60e731420e1faa6b47d19d8191cb310415ef9b9dc4a14cab60c5a093503139,
  0x4d85c101a4e621ef6ca7b13474a28d9cde59494b03b43d55e7048075d9c101,
  0x3a2450c13bac9973917dc4e75779ea35a6c2f6f842c72e006d4360586350c9,
  0x26c2e080d27310f7b653d89a3a5146ce6f2ca4a581da1eaaf382403aece091,
  0x136170406939887bdb29ec4d1d28a36737965252c0ed0f5579c1201d767059,
  0x26c2e080d27310f7b653d89a3a5146ce6f2ca4a581da1eaaf382403aece0721,
  0x258cc97ccbdf786ff8a139d5687ebc97fbb33f8055cb4db59be62e3915796e9,
  0x2456b278c54bdfe83aee9b1096ac32618839da5b29bc7cc0444a1c373e126b1,
  0x23209b74beb847607d3bfc4bc4d9a82b14c07535fdadabcaecae0a3566ab679,
  0x21ea8470b824aed8bf895d86f3071df4a1471010d19edad59511f8338f44641,
  0x20b46d6cb191165101d6bec2213493be2dcdaaeba59009e03d75e631b7dd609,
  0x1f7e5668aafd7dc944241ffd4f620987ba5445c6798138eae5d9d42fe0765d1,
  0x1e483f64a469e541867181387d8f7f5146dae0a14d7267f58e3dc22e090f599,
  0x1d1228609dd64cb9c8bee273abbcf51ad3617b7c2163970036a1b02c31a8561,
  0x1bdc115c9742b4320b0c43aed9ea6ae45fe81656f554c60adf059e2a5a41529,
  0x1aa5fa5890af1baa4d59a4ea0817e0adec6eb131c945f51587698c2882da4f1,
  0x196fe3548a1b83228fa706253645567778f54c0c9d3724202fcd7a26ab734b9,
  0x1839cc508387ea9ad1f467606472cc41057be6e77128532ad8316824d40c481,
  0x1703b54c7cf452131441c89b92a0420a920281c24519823580955622fca5449,
  0x15cd9e487660b98b568f29d6c0cdb7d41e891c9d190ab14028f94421253e411,
  0x149787446fcd210398dc8b11eefb2d9dab0fb777ecfbe04ad15d321f4dd73d9,
  0x136170406939887bdb29ec4d1d28a36737965252c0ed0f5579c1201d76703a1,
  0x122b593c62a5eff41d774d884b561930c41ced2d94de3e6022250e1b9f09369,
  0x10f542385c12576c5fc4aec379838efa50a3880868cf6d6aca88fc19c7a2331,
  0xfbf2b34557ebee4a2120ffea7b104c3dd2a22e33cc09c7572ecea17f03b2f9,
  0xe8914304eeb265ce45f7139d5de7a8d69b0bdbe10b1cb801b50d81618d42c1,
  0xd52fd2c48578dd526acd275040bf056f6375898e4a2fa8ac3b4c614416d289,
  0xc1ce62841c3f54d68fa33b03239662082bdf373b89429956c18b4126a06251,
  0xae6cf243b305cc5ab4794eb6066dbea0f448e4e8c8558a0147ca210929f219,
  0x9b0b820349cc43ded94f6268e9451b39bcb2929607687aabce0900ebb381e1,
  0x87aa11c2e092bb62fe25761bcc1c77d2851c4043467b6b565447e0ce3d11a9,
  0x7448a182775932e722fb89ceaef3d46b4d85edf0858e5c00da86c0b0c6a171,
  0x60e731420e1faa6b47d19d8191cb310415ef9b9dc4a14cab60c5a093503139,
  0x4d85c101a4e621ef6ca7b13474a28d9cde59494b03b43d55e7048075d9c101,
  0x3a2450c13bac9973917dc4e75779ea35a6c2f6f842c72e006d4360586350c9,
  0x26c2e080d27310f7b653d89a3a5146ce6f2ca4a581da1eaaf382403aece091,
  0x136170406939887bdb29ec4d1d28a36737965252c0ed0f5579c1201d767059]

def multiPolyQ : List ℕ := [
  0x1ae81b34dedf314a28fd599c8b1a97b9c296060f740a6975fb9fa42c077caf81,
  0x1ce8086489fe25c990f34c15b54b4d5d9857f0ae215817621f8345950b0077a9,
  0x1ce8086489fe25c990f34c15b54b4d5d9857f0ae215817621f8345950b0077a9,
  0x1ce8086489fe25c990f34c15b54b4d5d9857f0ae215817621f8345950b0077a9,
  0x1ce8086489fe25c990f34c15b54b4d5d9857f0ae215817621f8345950b0077a9,
  0x1ce8086489fe25c990f34c15b54b4d5d9857f0ae215817621f8345950b0077a9,
  0x1ce8086489fe25c990f34c15b54b4d5d9857f0ae215817621f8345950b0077a9,
  0x1ce8086489fe25c990f34c15b54b4d5d9857f0ae215817621f8345950b0077a9,
  0x1ce8086489fe25c990f34c15b54b4d5d9857f0ae215817621f8345950b0077a9,
  0x1ce8086489fe25c990f34c15b54b4d5d9857f0ae215817621f8345950b0077a9,
  0x1ce8086489fe25c990f34c15b54b4d5d9857f0ae215817621f8345950b0077a9,
  0x1ce8086489fe25c990f34c15b54b4d5d9857f0ae215817621f8345950b0077a9,
  0x1ce8086489fe25c990f34c15b54b4d5d9857f0ae215817621f8345950b0077a9,
  0x1ce8086489fe25c990f34c15b54b4d5d9857f0ae215817621f8345950b0077a9,
  0x1ce8086489fe25c990f34c15b54b4d5d9857f0ae215817621f8345950b0077a9,
  0x1ce8086489fe25c990f34c15b54b4d5d9857f0ae215817621f8345950b0077a9,
  0x1ce8086489fe25c990f34c15b54b4d5d9857f0ae215817621f8345950b0077a9,
  0x1ce8086489fe25c990f34c15b54b4d5d9857f0ae215817621f8345950b0077a9,
  0x1ce8086489fe25c990f34c15b54b4d5d9857f0ae215817621f8345950b0077a9,
  0x1ce8086489fe25c990f34c15b54b4d5d9857f0ae215817621f8345950b0077a9,
  0x1ce8086489fe25c990f34c15b54b4d5d9857f0ae215817621f8345950b0077a9,
  0x1ce8086489fe25c990f34c15b54b4d5d9857f0ae215817621f8345950b0077a9,
  0x1ce8086489fe25c990f34c15b54b4d5d9857f0ae215817621f8345950b0077a9,
  0x1ce8086489fe25c990f34c15b54b4d5d9857f0ae215817621f8345950b0077a9,
  0x1ce8086489fe25c990f34c15b54b4d5d9857f0ae215817621f8345950b0077a9,
  0x1ce8086489fe25c990f34c15b54b4d5d9857f0ae215817621f8345950b0077a9,
  0x1ce8086489fe25c990f34c15b54b4d5d9857f0ae215817621f8345950b0077a9,
  0x1ce8086489fe25c990f34c15b54b4d5d9857f0ae215817621f8345950b0077a9,
  0x1ce8086489fe25c990f34c15b54b4d5d9857f0ae215817621f8345950b0077a9,
  0x1ce8086489fe25c990f34c15b54b4d5d9857f0ae215817621f8345950b0077a9,
  0x1ce8086489fe25c990f34c15b54b4d5d9857f0ae215817621f8345950b0077a9,
  0x1ce8086489fe25c990f34c15b54b4d5d9857f0ae215817621f8345950b0077a9,
  0x0,
  0xfce5d8fb244b620dc71bb37fefa08d4ce164cd6f7000ac14cbca0b72c73925a,
  0x12bfa828bb69dff0d3d30da81b23c26f812c6ca11913e5df197e717354af6243,
  0xc6a166033f765bfb1bab9f3ebcb2f16fe47602c568c788e655360090ed1094d,
  0x9a6fc0191a4fcefbd9e3f1f4d915bb549b7e368c82bcab25663421c5f8c40d3,
  0xd4e4cf8a751b5518671ad18578ceb898325ad2c6f5935088b10c663a6d399a5,
  0xdb7661d2d48c5c0793f31476e3a59e6ac2043291c74200ae68d0d1ad89ee2db,
  0x18827c92c716a23a0edcb1a956a87d603bdf0f0bdd3abef43964592a7f699c5f,
  0x1cf7898b23ebed69f4090739262f6de0515135bcc9f26ea19717e01522926b09,
  0x21aa12f1fe3fa586f1d6fd2851a37e8b11d84fa733523b3c3d8916a1bb681b3,
  0x18d2e1fd3070503205de4efa38d8b0cdc279fa97746169d780afb3321bab3e52,
  0x4064f24b2767b9b239759172e18fa29aff3f2562aa87694d6bcb7b7c293099a,
  0x1a53a2ba1acce9df8cc5bcefed287777408a978cde9c4f05dead8b9bee3485a6,
  0x134cad3febcb7e921da55950fc650a0a595b011057a00e1f62cf7758bd21ad5e,
  0x1bb2ee87fbe9cf3b3477a6e686a8f53365bb26dc3f9a6e30347f0e6bdaf4a562,
  0x4e8b18e03005a75789bd5af7adce66f6c99c0e05b64a4c229a79d60d75b6040,
  0x1cf4f404b4eef6cf38dabd5de8b4131fdd27aa3a588360170329c6551ea4c279,
  0x1544461220513c8517e862470123489905a9c1517c811448cfce596f8138b7ac,
  0x17288dbf430e18d310db63cb42534fc5f935d9b9c434f5e49afabfd748f70bfc,
  0x162272e7559b4c8e683322774e864614339043501bd54bb570d562d3e6ca6965,
  0xb1e2a9cd29cd374e8fb1d436d1cf65f133583f4343592d6f86d90ea8e13df41,
  0x1ac3c74fcd14110749dbf70e7e3cdf693c2163101a3e9c84a13c1a48a5cfe8b5,
  0x101200228f180a8daeba98c6c57a01980e97e7d53b3a8eeceec3434498b2fdc5,
  0x150bd518088ee2cabe3f285d7b1a8aa51efd5b2d07f00fce6dd8e2a98578bae0,
  0x41b9c376f063e1a5f08b5bf9626ff70f845d2dcc88c51e510a6d2c2f9275ebf,
  0x91e78ee08b81b52d23668362fc7d90dfb02faaaa20d1bacd28ac85c8697c72a,
  0xbf56a0b3fb4fbff408941591c38a3069c953b1913c585ea47e2ac33bcea7444,
  0x1a7dc7cc22487dff9ef9361c35b1b8dd2fd20fb807a4933e1ce8459fc9735fca,
  0x1cf25e7e45f200347dac7382ab38b85f68fe1eb7e714518c6f3bac951ab719e9,
  0x16c503614a16ec81c6cd275aaf11f9cc4849ec358c2514e4df7c6eb5d71478b8,
  0x1d54b4b06aa76b2bca345e8a109257f73306d6495202239b4e5ed4eba8c4c46,
  0x1a2f441fa39f9764898ff8ae0cfee4fdb46ea1f458b3a3b0604b8ea86b72516f,
  0x0,
  0x11d57ea4aad3a80cf2487b2cdcd96f608fdd6084eb9645fac0c5288a8e9a0ef0,
  0xfce5d8fb244b620dc71bb37fefa08d4ce164cd6f7000ac14cbca0b72c73925a,
  0x175af53b7ddbfa02b4897bcd024f10debde3d10fc8ac009bb629d2ba9990061a,
  0x12bfa828bb69dff0d3d30da81b23c26f812c6ca11913e5df197e717354af6243,
  0x11a2c2a233c0929b115ef32b765005cfaa570beb7852def9bf294f21bd73bcaa,
  0xc6a166033f765bfb1bab9f3ebcb2f16fe47602c568c788e655360090ed1094d,
  0xd0e0cda3f3d749ceebe6e59620bc167535f43a8c39a82112c4ccbed215c64a8,
  0x9a6fc0191a4fcefbd9e3f1f4d915bb549b7e368c82bcab25663421c5f8c40d3,
  0x657c88d831b37e1985be017e8fe4271555ebde7ec2cd23689d7ca1939d6db58,
  0xd4e4cf8a751b5518671ad18578ceb898325ad2c6f5935088b10c663a6d399a5,
  0xb94ec413d464a103739445c70887e9319a54fbd7e763e94f278e65ba576f022,
  0xdb7661d2d48c5c0793f31476e3a59e6ac2043291c74200ae68d0d1ad89ee2db,
  0x15d160835bb71cd6f80f730ed039237ac658c0ac9feb9f7ac4b4025e7698afaa,
  0x18827c92c716a23a0edcb1a956a87d603bdf0f0bdd3abef43964592a7f699c5f,
  0x16bb26a1e3a19a9e60b5fd28f67d0d9a77661651f0aaf3a3e720e0984787a3ea,
  0x1cf7898b23ebed69f4090739262f6de0515135bcc9f26ea19717e01522926b09,
  0x1573cb537eedcbea67972f0276570fabe087bc8d15390d965ad79a10d56b77c4,
  0x21aa12f1fe3fa586f1d6fd2851a37e8b11d84fa733523b3c3d8916a1bb681b3,
  0x1b916a2f4c1f1f4a9c8f41b63aa9dc381322709739a19fb280cbb529b3d16fbd,
  0x18d2e1fd3070503205de4efa38d8b0cdc279fa97746169d780afb3321bab3e52,
  0x3641581d1afe7eaf1f739bcd2203104ec789c703b78ed1ba14dfe409411db6a,
  0x4064f24b2767b9b239759172e18fa29aff3f2562aa87694d6bcb7b7c293099a,
  0xff85889bfbf0dd72a000fc594aa91949dd980e78b47ac3d7c56d0a505b56b18,
  0x1a53a2ba1acce9df8cc5bcefed287777408a978cde9c4f05dead8b9bee3485a6,
  0xf4a60a288140b708c965814957601ceb9eee75d5a8223bebeef51f9a2aa623,
  0x134cad3febcb7e921da55950fc650a0a595b011057a00e1f62cf7758bd21ad5e,
  0x1923476799c9fe29fcdfec4b1b08e43b4914e6230b8814bac7fb0d39b7ece045,
  0x1bb2ee87fbe9cf3b3477a6e686a8f53365bb26dc3f9a6e30347f0e6bdaf4a562,
  0xc2152d061d37be1d3bce7daf138bc36112d9ba1b3c8d377df5a29b0100a2dbb,
  0x4e8b18e03005a75789bd5af7adce66f6c99c0e05b64a4c229a79d60d75b6040,
  0x10c1202b7306a5c24ac99d0a493dbdcb41c4ff76ea3b5182bebe4b99af7f33d1,
  0x0,
  0x5141c19944b1807b1cad4e8cd7b92f14b651e0725f7d6bf45c4296950af5459,
  0x2f4affe86471839d4fbb25ea5db0b363c8ae622f00910836d756002281963bd,
  0xfce5d8fb244b620dc71bb37fefa08d4ce164cd6f7000ac14cbca0b72c73925a,
  0x5cb1b823a6262aeca6834a507a315f9a9dd0abf5b96e2ed1e37f99dd3b6e235,
  0x5294ff0352918473b846699699a0b6a25e6ab3b5f2b10eff9ce5a7c7a58d532,
  0x12bfa828bb69dff0d3d30da81b23c26f812c6ca11913e5df197e717354af6243,
  0x1909a1df76522ba87eeb94d3da0b3b6f8b3f13721919e74d1c2bd5dff1bd2427,
  0x2393bb8f6ec2a4a94ff05da4905cadfd0a44d973da4509164e2b6954f9d930d,
  0xc6a166033f765bfb1bab9f3ebcb2f16fe47602c568c788e655360090ed1094d,
  0x19b1a6c56e9f06a626504c8ae2b5a86f0e061c4116b1df15e21884a27337a13b,
  0xf6e67c7e8ca28141b95a89c378f90d0a16aa1bbf7222a982bf6af1eff630453,
  0x9a6fc0191a4fcefbd9e3f1f4d915bb549b7e368c82bcab25663421c5f8c40d3,
  0x2ea6fcb05b2b9f34e1ded12fe178130b8ee05171bae7370f5de63c5a4f92d3f,
  0x2a0068762a391a24e7ddb805ccdee4862884cec412f89cbda852dd92e79688b,
  0xd4e4cf8a751b5518671ad18578ceb898325ad2c6f5935088b10c663a6d399a5,
  0x14b0cff5abf1a994d2e1e09688fd4e7ba7cc4af4903f7397fe35a00f18b1ba2b,
  0x11f12e5e8a58fc055fc7231411138b7b4ad1ae49fc0920c9a3d2eba1c31397ae,
  0xdb7661d2d48c5c0793f31476e3a59e6ac2043291c74200ae68d0d1ad89ee2db,
  0xa1176a8ffa7b7ed80afd8a8af169cc3f578e0b1ffff167bbf4ccc2a1f77bd00,
  0x11f9cfc8ffc416c31ebb76fbd0e388db9e7ba3cec708bf671690e2ddaa1ae682,
  0x18827c92c716a23a0edcb1a956a87d603bdf0f0bdd3abef43964592a7f699c5f,
  0xacaf2958939fa719f94f01e74b0b39c7bc75bbcc0be4ef3611c424a94715fea,
  0x100f3912e094dc4d3627e12530d157b5f242b559c087c7bd09a421151fce8d56,
  0x1cf7898b23ebed69f4090739262f6de0515135bcc9f26ea19717e01522926b09,
  0xf8da18bc7173620cd8dcad47cff5061f2e6a42c970dc6d439e103e6513c8fb1,
  0x535cbf544efa034db52d9fc2ac11503207b2679077f116d84fa7feba8e3054f,
  0x21aa12f1fe3fa586f1d6fd2851a37e8b11d84fa733523b3c3d8916a1bb681b3,
  0x2c9a1a8aa344ed058e27dd3181c4c90e0646f400910a9de3a15c486268daa85,
  0x1bce23fbf6f2c2e5603319bcc569ce4172e55688fbffbce23178733bf70cf1a0,
  0x18d2e1fd3070503205de4efa38d8b0cdc279fa97746169d780afb3321bab3e52,
  0x2b850f4acb9a85145bfc675e14f59ec5db161021f15ca961875262783afd63c,
  0x0,
  0x56434abae1662a703682f6dac805b18b7ad1fe3a9cb97cb902435550d40dce0,
  0x11d57ea4aad3a80cf2487b2cdcd96f608fdd6084eb9645fac0c5288a8e9a0ef0,
  0x235ec715647ec8de2c84c71f2b152563a2ed0253bbb0c7f840aaa0352894bb6,
  0xfce5d8fb244b620dc71bb37fefa08d4ce164cd6f7000ac14cbca0b72c73925a,
  0xb8be1378dc125bf2cb7bfbc3f81128c8a617383d29cb390b9d797528847cd99,
  0x175af53b7ddbfa02b4897bcd024f10debde3d10fc8ac009bb629d2ba9990061a,
  0x19c2077aa532669afb7ada656a3b1aeeeee13386906b0c844ae7df8105ff0c90,
  0x12bfa828bb69dff0d3d30da81b23c26f812c6ca11913e5df197e717354af6243,
  0x1266533a9deffcf4f2ea6f6d14c15af407e3a3ae444a3863123962155ec4a9c7,
  0x11a2c2a233c0929b115ef32b765005cfaa570beb7852def9bf294f21bd73bcaa,
  0xe617c04a90bad86e84bef6f37deab63e8e13ca4fdac1d7d17aee72780423a57,
  0xc6a166033f765bfb1bab9f3ebcb2f16fe47602c568c788e655360090ed1094d,
  0x19e453c5f5bdcb5627f7cee4bf208f765d948d46e2d72da8f75b6c049945eafe,
  0xd0e0cda3f3d749ceebe6e59620bc167535f43a8c39a82112c4ccbed215c64a8,
  0x5aab826d779fc846f3ffb6fa99d081a0532ea713010e2a20891f99641b3236c,
  0x9a6fc0191a4fcefbd9e3f1f4d915bb549b7e368c82bcab25663421c5f8c40d3,
  0x18f9c61981dbc8c780eecc8328b434d3386006f3354e65638a7fef23e1a2c555,
  0x657c88d831b37e1985be017e8fe4271555ebde7ec2cd23689d7ca1939d6db58,
  0x1c617de8408f63def3d43bad708e19027f4a33dd6c41bf6631910cf4b61dc4f8,
  0xd4e4cf8a751b5518671ad18578ceb898325ad2c6f5935088b10c663a6d399a5,
  0x1370bd970ba639953a253b8bdb41ff972b92e8a3f3389b20bfe440e82b9f531c,
  0xb94ec413d464a103739445c70887e9319a54fbd7e763e94f278e65ba576f022,
  0x340589f7100b249377a198c8d1ba9d9a905ff156b4610f2b3dc2a8b43e1ea7f,
  0xdb7661d2d48c5c0793f31476e3a59e6ac2043291c74200ae68d0d1ad89ee2db,
  0x8e4fda67e019eea76970967ffef4fb12435a307743af85934812c56a691f63,
  0x15d160835bb71cd6f80f730ed039237ac658c0ac9feb9f7ac4b4025e7698afaa,
  0x1a2a0798d33c2cb182611a9d31da192ec2ae753916bb2ef37f1cf4eef62043ac,
  0x18827c92c716a23a0edcb1a956a87d603bdf0f0bdd3abef43964592a7f699c5f,
  0xce87058d0cac14c9869610caff9e6fdfb69e75afbb699dc9824840176962b86,
  0x16bb26a1e3a19a9e60b5fd28f67d0d9a77661651f0aaf3a3e720e0984787a3ea,
  0x1063e3ac9ff8ea55d88f5e0b6b153e1772df5c309bd87214fad0099d7698166e,
  0x0,
  0xec2b61768471391e2c59b3f287fc16a0715dfa6ad19daa10b59f3e7fe2a559a,
  0x1ad596846ec38d472073c53e27341dbfb2779144ef378c3fc6ebf0dd1223f1c3,
  0x127d808d8e172f31d6c65ef05e59abeac86bd4279bca72b155a2571b0b23fe40,
  0x9e4fc4c2a911f252d0f33c2ba422d8bf716ad8dc1b8e900e76c67b9f41f7826,
  0xfce5d8fb244b620dc71bb37fefa08d4ce164cd6f7000ac14cbca0b72c73925a,
  0x1b3bc2a1fca75daadf763f1e5c017feeb1d510917fb401c6991dd10ede05adc2,
  0x1264841274930c1a6e3e137e44cfa52c5f090f016f9c7cb746ac5cbcc112638e,
  0x108ebdee277302f79fe57232d921ec298d1e9b51ac1d7d587bbb8cec15b83604,
  0x5ff8865b664a218df4678ab1f3b7738a411acf29eff7389cdfef596ee931353,
  0x12bfa828bb69dff0d3d30da81b23c26f812c6ca11913e5df197e717354af6243,
  0x59691e5f601341f01fd4cf72ce85d83e74f83a873e37559c639771de6799ecb,
  0x138a70345462188d11db34d90e1abddd75869800840f51b69c48d9484ed0dbff,
  0x1ca42ef93f8639571f77892b6b91748ba4f1465a7274c62f5cef78db9053799f,
  0x13fb47083fc91faf1376de320d1c80229f1dc6b602c9d290b0caf5164e8061ec,
  0xc6a166033f765bfb1bab9f3ebcb2f16fe47602c568c788e655360090ed1094d,
  0x126faeda4c66c3108886bba5fa85a47d6ab35f8470e71bd27138db705ce3cf2d,
  0xf387974ef0243b2f963001fdfd32e873f9e4cbe7a79e4559ed7436a90430295,
  0x875825df555b71b6d2626dd2f8e9fcd40387167fcc8a72b1988645cd230a5b2,
  0x1778150a4a2bf704c84f9fca830fbc870fdc7cdde2d92c396290d89f1235b713,
  0x9a6fc0191a4fcefbd9e3f1f4d915bb549b7e368c82bcab25663421c5f8c40d3,
  0x14ce9ca3da84c152b2b204ee8363ee72b57a185c9bd127555de8aa8575940942,
  0x183217285dbcf44217db1458747849f2b544238046141410f218ff22e327fa6c,
  0x904876d86afa68be66ee787ff739ac06866118faca567163878dd39fc4f8177,
  0x1426cd9ba5cae1c31a25201a3a6641a8993012a7aa24c2c75c7ebef444d3f6d8,
  0xd4e4cf8a751b5518671ad18578ceb898325ad2c6f5935088b10c663a6d399a5,
  0x166d5a55bcfc8110ead689cd416852ecaf2ac9ded27184b609ce661165880f30,
  0x1b9387f3d6d95d60b9f704f86fa0ef3f9a6ecbff7f4f77387fc3e3a7cd62d1fe,
  0x627b64d93dabf74f5b995966cdb6a34218e16ad06ee0936896ff501148fd45e,
  0xeb59e001be8c35b2b08ef12f153cd681ca3407856e855140f2767ce48ebeaa8,
  0xdb7661d2d48c5c0793f31476e3a59e6ac2043291c74200ae68d0d1ad89ee2db,
  0x12324419aba9d61155c95e24a08ea810ff0e22f4438d38cc2a341675fc83e150,
  0x0,
  0x13121ab094c57776477426f823ac0c71e1fea7a4593b3c0ee3c0659191da3b27,
  0x5141c19944b1807b1cad4e8cd7b92f14b651e0725f7d6bf45c4296950af5459,
  0x11d57ea4aad3a80cf2487b2cdcd96f608fdd6084eb9645fac0c5288a8e9a0ef0,
  0x2f4affe86471839d4fbb25ea5db0b363c8ae622f00910836d756002281963bd,
  0x8623def596a821446bc05ca80b053cac2c6a7cb5c91493d06fd594d974e2e0d,
  0xfce5d8fb244b620dc71bb37fefa08d4ce164cd6f7000ac14cbca0b72c73925a,
  0x30e457d47d652a5f2b4071e7e2f4deaeb996970ee5354c0d205b1dfd11019ab,
  0x5cb1b823a6262aeca6834a507a315f9a9dd0abf5b96e2ed1e37f99dd3b6e235,
  0x175af53b7ddbfa02b4897bcd024f10debde3d10fc8ac009bb629d2ba9990061a,
  0x5294ff0352918473b846699699a0b6a25e6ab3b5f2b10eff9ce5a7c7a58d532,
  0x1cd5d07bb07a6209ef551d66b14a9f5bc3be4065ebe3902ab523d7a364763526,
  0x12bfa828bb69dff0d3d30da81b23c26f812c6ca11913e5df197e717354af6243,
  0xe21ff3db74ff7a63cd4f0f97ce8ad9eb5ce5a09fc705c082ae7d7ce3755753c,
  0x1909a1df76522ba87eeb94d3da0b3b6f8b3f13721919e74d1c2bd5dff1bd2427,
  0x11a2c2a233c0929b115ef32b765005cfaa570beb7852def9bf294f21bd73bcaa,
  0x2393bb8f6ec2a4a94ff05da4905cadfd0a44d973da4509164e2b6954f9d930d,
  0xef860fb7d1322c71b2a50d7c513c2dbf3b3e2916c61acdebd7665abd7b818f4,
  0xc6a166033f765bfb1bab9f3ebcb2f16fe47602c568c788e655360090ed1094d,
  0xc149b7a510a95d5a067fbb28939ed40909b8e419285ccf6209a039b2a20dc10,
  0x19b1a6c56e9f06a626504c8ae2b5a86f0e061c4116b1df15e21884a27337a13b,
  0xd0e0cda3f3d749ceebe6e59620bc167535f43a8c39a82112c4ccbed215c64a8,
  0xf6e67c7e8ca28141b95a89c378f90d0a16aa1bbf7222a982bf6af1eff630453,
  0x163be5288fae0c39e4c3ba1914fc14b9b452c511bc9959f9bf5f6d82d475e04b,
  0x9a6fc0191a4fcefbd9e3f1f4d915bb549b7e368c82bcab25663421c5f8c40d3,
  0x75643817aebdd9f9dad5d8102580073ea8f3a306fe90934f1978f6ea3c3cf77,
  0x2ea6fcb05b2b9f34e1ded12fe178130b8ee05171bae7370f5de63c5a4f92d3f,
  0x657c88d831b37e1985be017e8fe4271555ebde7ec2cd23689d7ca1939d6db58,
  0x2a0068762a391a24e7ddb805ccdee4862884cec412f89cbda852dd92e79688b,
  0xa9cca133e41c7fbf21fda74d77cd032be2afe7a9387998b310993659155f52d,
  0xd4e4cf8a751b5518671ad18578ceb898325ad2c6f5935088b10c663a6d399a5,
  0xb4be00c4f31cf208d9bb1f80ae21e0e68dec2c91c0cc9d1bcbc8d144ad47431,
  0x0,
  0x3dd2b428ec1158e50cd2f67e4abf31bd9ef9e6aa54c6f0a8222555e8dcc32e6,
  0xb48cdba1356e52c5572b33e1ff8d780134e0cb937cd219d510b5b85b0584bb4,
  0x392e9ef09743dbf03537802c381c939bc0b5496163fb0ba569ac82494f44a7c,
  0x18627ca5a5d6b4e465c5acf0c3f5f5284e723e81f9b2001360fac1f6d66fcc3,
  0x10b444efd248f060db50af8b172e296bae1f3669c86167960651b4c00944307c,
  0x156b689ecdccfff1d9b6806cd9ecba5584c62188347cc338bf17909d8c71bc7f,
  0xfce5d8fb244b620dc71bb37fefa08d4ce164cd6f7000ac14cbca0b72c73925a,
  0x14fc02a7dfcba4250dd491cd2b38fbc61f6ed829a0aa5c257de7fe32a0b31fa1,
  0xad1971e1226edbae022909fb9cce1fa0fa03796cf28581717e668ea8155f827,
  0x17c6e545269ab6f7792e429746e2b00b57203ec62735dae1e85f31c36825cd28,
  0x127ee37c0887222f12b79e54ff044eddc126e68e69174743581a2c43497876ca,
  0x2f187fa3cb2b8aa9fe2cd1f943030fc21c201bf1d4b2cce0336409ff9f05ffa,
  0x10df1a08a62b9e342bdeb1abd64944a471fb30c27fdf42469f90f94ff58a59fa,
  0x12bfa828bb69dff0d3d30da81b23c26f812c6ca11913e5df197e717354af6243,
  0x1956e3d219239782aa8595d6018ceed120c5006ffba5152420abd99c6728d927,
  0x1cfa1f1192e8e404af37511463aac8a0c57ac13f3b617d2c2b05f9d526801399,
  0x69bdc2ac4bc406f129e1089d09ecfd4d5909e4c16c84cb4f5dd3d33d31b478f,
  0x16fd0903ea132df55bec5c9f9f157838572e446c7c09bae26544fb303fc38ba8,
  0x5b80c3b97e20d46da4b447e3ffa1fb86cc7f05cae7cb46654e724cae2ec83d8,
  0xaebe529a78fa9b76bfcee4de9ccdd9f0c5b871aff3891ea92380be12605bf8b,
  0xc6a166033f765bfb1bab9f3ebcb2f16fe47602c568c788e655360090ed1094d,
  0x10f556896a79dd519cae19c8a957adab34f377b22395536257e4cd310ecec8a0,
  0xa518c912a468fa5c5352623b758657afc7366814e3947c063042fa10cb59e30,
  0x11c181c1e12cea882d6954c954da1b1a16c633adfd156fe9372c337c70c9cd95,
  0x80609433adfb3fec09f9bfa4f4950067d39d6931af288c99859c349b4fa53d5,
  0x3785063e0700da5a2bc59ac4617d6bbed054c57bfb17f6e52f91feb7cabef63,
  0x1ae542578b24b4355337e36d093d32182571feffb9903d3cd5a2a0e0e32885d3,
  0x9a6fc0191a4fcefbd9e3f1f4d915bb549b7e368c82bcab25663421c5f8c40d3,
  0x137727b4b53c6f15464c2b1eeda602ca8697cafff9a5b3323195fd8c4e73e6fa,
  0x32f995ad43f78a03b599930e90c1a59a92d8a3adcb993dc55724cb373e0e1fa,
  0xda121f1182be2998889c704582291f6a4f07c90cf3592f346c3a06269d03550]

def multiPoly1 : List ℕ := [
  0x1aedd138d99c0fb99c7943b7a054722e86b8f27bf0fbcfd95255ee658de0bed4,
  0x49f3f4902c21dc4ce54813efca2c7bd7df435d0dbdd01a5f57a635b30404c09,
  0xb4c172df64f8b220cfe34c85b59934d74bf00263ad737e40d9bdf05fb16c11f,
  0x11f8ef12e9dcf87f4ba7e851ba105edd6b89ca7b99d16e2225bd5ab0c5ed3635,
  0x18a5c6f7dd6a65dc8a519bdb18c72a6d625494d0f8cba4603dded65b90c3ab4b,
  0x2573508069073e7bc2cd96275157ffc598fd825e3acd62ce1034b5133233880,
  0x9040cecfa1de144fad68cebd3cc4b8c505aa27b42a70c6af924c6fbfdf9ad96,
  0xfb0e4d1edab4ea2398040753283171c47256cd0a1a142a9114642a6c8d022ac,
  0x165dbcb6e138bbff7829f3fe9139e2ac3df03726009b78e72967be5193a697c2,
  0xf2ac70a5eca0aaa053185ed88383b352b7a7aeb7caab3cc8c3347360624f7,
  0x6bc02abfdec3767e8aee50f4c3f03cb2bf644d04a76e0f1e4adaef200dc9a0d,
  0xd68da90f179a4c527589898aaf5cf5b22c10f25a971172ffccf2a9ccbb30f23,
  0x1415b275e507122266024c2209ac9aeb198bd97b086b4d6e14f0a64796898439,
  0x1ac28a5ad8947f7fa4abffab6863667b1056a3d0676583ac2d1221f2615ff94f,
  0x473f86b01ba8d8ad6873d32c4b1bc0a0791e7255246b578d03696e803bf8684,
  0xb20d04ff547fae81530f0bc23688799fe5cb17ab140ebb6e8581292ce95fb9a,
  0x11cda834e8d5684553daa445821f5329f5277bd0103b21f500798e3d996c70b0,
  0x187a8019dc62d5a2928457cee0d61eb9ebf246256f355833189b09e86442e5c6,
  0x22bee2a0588e3adc45f95563d247448e32d897a5a1689ffbbbf7ede06a272fb,
  0x8d8c60ef916510b030948df9bdb3fd8d9f853cfb910c03dd3e0fa88d178e811,
  0xf859df3eca3be6841b2fc68fa920b68d0c31e25180af67bec0276339c4f5d27,
  0x163275d8e0312bc5805caff25948d6f8c78de87a77052cba0423f1de6725d23d,
  0x1cdf4dbdd3be9922bf06637bb7ffa288be58b2cfd5ff62f81c456d8931fc4753,
  0x690bbcdfce4a72df0e1a103144df817b593f624c0e094c4bf69e27ed45bd488,
  0xd3d93b2f072148b2f8b548c7304c3a7ac5ec07a1fdacb02d78b5e299f32499e,
  0x13ea6b97e3ff81e86e350815d1bb8f37a3298acf7ed50140efacd9d46a08beb4,
  0x1a97437cd78cef45acdebb9f30725ac799f45524ddcf377f07ce557f34df33ca,
  0x448b18d00b2fd50deb9f9268cc0b056912f9879c8b0694baaf2ca74d73ec0ff,
  0xaf58971f4406aae1d63acafeb777be687fa62cf27aa9f89c314461fa2153615,
  0x11a26156e7cdd80b5c0d60394a2e47767ec52d2486a4d5c7db35c1ca6cebab2b,
  0x184f393bdb5b45689ab713c2a8e51306758ff779e59f0c05f3573d7537c22041,
  0x200a74c04815373cc92514a053368956ccb3aced0803dd2967bb26ada21ad76,
  0x1aedd138d99c0fb99c7943b7a054722e86b8f27bf0fbcfd95255ee658de0bed4,
  0x49f3f4902c21dc4ce54813efca2c7bd7df435d0dbdd01a5f57a635b30404c09,
  0xb4c172df64f8b220cfe34c85b59934d74bf00263ad737e40d9bdf05fb16c11f,
  0x11f8ef12e9dcf87f4ba7e851ba105edd6b89ca7b99d16e2225bd5ab0c5ed3635,
  0x18a5c6f7dd6a65dc8a519bdb18c72a6d625494d0f8cba4603dded65b90c3ab4b,
  0x2573508069073e7bc2cd96275157ffc598fd825e3acd62ce1034b5133233880,
  0x9040cecfa1de144fad68cebd3cc4b8c505aa27b42a70c6af924c6fbfdf9ad96,
  0xfb0e4d1edab4ea2398040753283171c47256cd0a1a142a9114642a6c8d022ac,
  0x165dbcb6e138bbff7829f3fe9139e2ac3df03726009b78e72967be5193a697c2,
  0xf2ac70a5eca0aaa053185ed88383b352b7a7aeb7caab3cc8c3347360624f7,
  0x6bc02abfdec3767e8aee50f4c3f03cb2bf644d04a76e0f1e4adaef200dc9a0d,
  0xd68da90f179a4c527589898aaf5cf5b22c10f25a971172ffccf2a9ccbb30f23,
  0x1415b275e507122266024c2209ac9aeb198bd97b086b4d6e14f0a64796898439,
  0x1ac28a5ad8947f7fa4abffab6863667b1056a3d0676583ac2d1221f2615ff94f,
  0x473f86b01ba8d8ad6873d32c4b1bc0a0791e7255246b578d03696e803bf8684,
  0xb20d04ff547fae81530f0bc23688799fe5cb17ab140ebb6e8581292ce95fb9a,
  0x11cda834e8d5684553daa445821f5329f5277bd0103b21f500798e3d996c70b0,
  0x187a8019dc62d5a2928457cee0d61eb9ebf246256f355833189b09e86442e5c6,
  0x22bee2a0588e3adc45f95563d247448e32d897a5a1689ffbbbf7ede06a272fb,
  0x8d8c60ef916510b030948df9bdb3fd8d9f853cfb910c03dd3e0fa88d178e811,
  0xf859df3eca3be6841b2fc68fa920b68d0c31e25180af67bec0276339c4f5d27,
  0x163275d8e0312bc5805caff25948d6f8c78de87a77052cba0423f1de6725d23d,
  0x1cdf4dbdd3be9922bf06637bb7ffa288be58b2cfd5ff62f81c456d8931fc4753,
  0x690bbcdfce4a72df0e1a103144df817b593f624c0e094c4bf69e27ed45bd488,
  0xd3d93b2f072148b2f8b548c7304c3a7ac5ec07a1fdacb02d78b5e299f32499e,
  0x13ea6b97e3ff81e86e350815d1bb8f37a3298acf7ed50140efacd9d46a08beb4,
  0x1a97437cd78cef45acdebb9f30725ac799f45524ddcf377f07ce557f34df33ca,
  0x448b18d00b2fd50deb9f9268cc0b056912f9879c8b0694baaf2ca74d73ec0ff,
  0xaf58971f4406aae1d63acafeb777be687fa62cf27aa9f89c314461fa2153615,
  0x11a26156e7cdd80b5c0d60394a2e47767ec52d2486a4d5c7db35c1ca6cebab2b,
  0x184f393bdb5b45689ab713c2a8e51306758ff779e59f0c05f3573d7537c22041,
  0x200a74c04815373cc92514a053368956ccb3aced0803dd2967bb26ada21ad76,
  0x1aedd138d99c0fb99c7943b7a054722e86b8f27bf0fbcfd95255ee658de0bed4,
  0x49f3f4902c21dc4ce54813efca2c7bd7df435d0dbdd01a5f57a635b30404c09,
  0xb4c172df64f8b220cfe34c85b59934d74bf00263ad737e40d9bdf05fb16c11f,
  0x11f8ef12e9dcf87f4ba7e851ba105edd6b89ca7b99d16e2225bd5ab0c5ed3635,
  0x18a5c6f7dd6a65dc8a519bdb18c72a6d625494d0f8cba4603dded65b90c3ab4b,
  0x2573508069073e7bc2cd96275157ffc598fd825e3acd62ce1034b5133233880,
  0x9040cecfa1de144fad68cebd3cc4b8c505aa27b42a70c6af924c6fbfdf9ad96,
  0xfb0e4d1edab4ea2398040753283171c47256cd0a1a142a9114642a6c8d022ac,
  0x165dbcb6e138bbff7829f3fe9139e2ac3df03726009b78e72967be5193a697c2,
  0xf2ac70a5eca0aaa053185ed88383b352b7a7aeb7caab3cc8c3347360624f7,
  0x6bc02abfdec3767e8aee50f4c3f03cb2bf644d04a76e0f1e4adaef200dc9a0d,
  0xd68da90f179a4c527589898aaf5cf5b22c10f25a971172ffccf2a9ccbb30f23,
  0x1415b275e507122266024c2209ac9aeb198bd97b086b4d6e14f0a64796898439,
  0x1ac28a5ad8947f7fa4abffab6863667b1056a3d0676583ac2d1221f2615ff94f,
  0x473f86b01ba8d8ad6873d32c4b1bc0a0791e7255246b578d03696e803bf8684,
  0xb20d04ff547fae81530f0bc23688799fe5cb17ab140ebb6e8581292ce95fb9a,
  0x11cda834e8d5684553daa445821f5329f5277bd0103b21f500798e3d996c70b0,
  0x187a8019dc62d5a2928457cee0d61eb9ebf246256f355833189b09e86442e5c6,
  0x22bee2a0588e3adc45f95563d247448e32d897a5a1689ffbbbf7ede06a272fb,
  0x8d8c60ef916510b030948df9bdb3fd8d9f853cfb910c03dd3e0fa88d178e811,
  0xf859df3eca3be6841b2fc68fa920b68d0c31e25180af67bec0276339c4f5d27,
  0x163275d8e0312bc5805caff25948d6f8c78de87a77052cba0423f1de6725d23d,
  0x1cdf4dbdd3be9922bf06637bb7ffa288be58b2cfd5ff62f81c456d8931fc4753,
  0x690bbcdfce4a72df0e1a103144df817b593f624c0e094c4bf69e27ed45bd488,
  0xd3d93b2f072148b2f8b548c7304c3a7ac5ec07a1fdacb02d78b5e299f32499e,
  0x13ea6b97e3ff81e86e350815d1bb8f37a3298acf7ed50140efacd9d46a08beb4,
  0x1a97437cd78cef45acdebb9f30725ac799f45524ddcf377f07ce557f34df33ca,
  0x448b18d00b2fd50deb9f9268cc0b056912f9879c8b0694baaf2ca74d73ec0ff,
  0xaf58971f4406aae1d63acafeb777be687fa62cf27aa9f89c314461fa2153615,
  0x11a26156e7cdd80b5c0d60394a2e47767ec52d2486a4d5c7db35c1ca6cebab2b,
  0x184f393bdb5b45689ab713c2a8e51306758ff779e59f0c05f3573d7537c22041,
  0x200a74c04815373cc92514a053368956ccb3aced0803dd2967bb26ada21ad76,
  0x1aedd138d99c0fb99c7943b7a054722e86b8f27bf0fbcfd95255ee658de0bed4,
  0x49f3f4902c21dc4ce54813efca2c7bd7df435d0dbdd01a5f57a635b30404c09,
  0xb4c172df64f8b220cfe34c85b59934d74bf00263ad737e40d9bdf05fb16c11f,
  0x11f8ef12e9dcf87f4ba7e851ba105edd6b89ca7b99d16e2225bd5ab0c5ed3635,
  0x18a5c6f7dd6a65dc8a519bdb18c72a6d625494d0f8cba4603dded65b90c3ab4b,
  0x2573508069073e7bc2cd96275157ffc598fd825e3acd62ce1034b5133233880,
  0x9040cecfa1de144fad68cebd3cc4b8c505aa27b42a70c6af924c6fbfdf9ad96,
  0xfb0e4d1edab4ea2398040753283171c47256cd0a1a142a9114642a6c8d022ac,
  0x165dbcb6e138bbff7829f3fe9139e2ac3df03726009b78e72967be5193a697c2,
  0xf2ac70a5eca0aaa053185ed88383b352b7a7aeb7caab3cc8c3347360624f7,
  0x6bc02abfdec3767e8aee50f4c3f03cb2bf644d04a76e0f1e4adaef200dc9a0d,
  0xd68da90f179a4c527589898aaf5cf5b22c10f25a971172ffccf2a9ccbb30f23,
  0x1415b275e507122266024c2209ac9aeb198bd97b086b4d6e14f0a64796898439,
  0x1ac28a5ad8947f7fa4abffab6863667b1056a3d0676583ac2d1221f2615ff94f,
  0x473f86b01ba8d8ad6873d32c4b1bc0a0791e7255246b578d03696e803bf8684,
  0xb20d04ff547fae81530f0bc23688799fe5cb17ab140ebb6e8581292ce95fb9a,
  0x11cda834e8d5684553daa445821f5329f5277bd0103b21f500798e3d996c70b0,
  0x187a8019dc62d5a2928457cee0d61eb9ebf246256f355833189b09e86442e5c6,
  0x22bee2a0588e3adc45f95563d247448e32d897a5a1689ffbbbf7ede06a272fb,
  0x8d8c60ef916510b030948df9bdb3fd8d9f853cfb910c03dd3e0fa88d178e811,
  0xf859df3eca3be6841b2fc68fa920b68d0c31e25180af67bec0276339c4f5d27,
  0x163275d8e0312bc5805caff25948d6f8c78de87a77052cba0423f1de6725d23d,
  0x1cdf4dbdd3be9922bf06637bb7ffa288be58b2cfd5ff62f81c456d8931fc4753,
  0x690bbcdfce4a72df0e1a103144df817b593f624c0e094c4bf69e27ed45bd488,
  0xd3d93b2f072148b2f8b548c7304c3a7ac5ec07a1fdacb02d78b5e299f32499e,
  0x13ea6b97e3ff81e86e350815d1bb8f37a3298acf7ed50140efacd9d46a08beb4,
  0x1a97437cd78cef45acdebb9f30725ac799f45524ddcf377f07ce557f34df33ca,
  0x448b18d00b2fd50deb9f9268cc0b056912f9879c8b0694baaf2ca74d73ec0ff,
  0xaf58971f4406aae1d63acafeb777be687fa62cf27aa9f89c314461fa2153615,
  0x11a26156e7cdd80b5c0d60394a2e47767ec52d2486a4d5c7db35c1ca6cebab2b,
  0x184f393bdb5b45689ab713c2a8e51306758ff779e59f0c05f3573d7537c22041,
  0x200a74c04815373cc92514a053368956ccb3aced0803dd2967bb26ada21ad76,
  0x1aedd138d99c0fb99c7943b7a054722e86b8f27bf0fbcfd95255ee658de0bed4,
  0x49f3f4902c21dc4ce54813efca2c7bd7df435d0dbdd01a5f57a635b30404c09,
  0xb4c172df64f8b220cfe34c85b59934d74bf00263ad737e40d9bdf05fb16c11f,
  0x11f8ef12e9dcf87f4ba7e851ba105edd6b89ca7b99d16e2225bd5ab0c5ed3635,
  0x18a5c6f7dd6a65dc8a519bdb18c72a6d625494d0f8cba4603dded65b90c3ab4b,
  0x2573508069073e7bc2cd96275157ffc598fd825e3acd62ce1034b5133233880,
  0x9040cecfa1de144fad68cebd3cc4b8c505aa27b42a70c6af924c6fbfdf9ad96,
  0xfb0e4d1edab4ea2398040753283171c47256cd0a1a142a9114642a6c8d022ac,
  0x165dbcb6e138bbff7829f3fe9139e2ac3df03726009b78e72967be5193a697c2,
  0xf2ac70a5eca0aaa053185ed88383b352b7a7aeb7caab3cc8c3347360624f7,
  0x6bc02abfdec3767e8aee50f4c3f03cb2bf644d04a76e0f1e4adaef200dc9a0d,
  0xd68da90f179a4c527589898aaf5cf5b22c10f25a971172ffccf2a9ccbb30f23,
  0x1415b275e507122266024c2209ac9aeb198bd97b086b4d6e14f0a64796898439,
  0x1ac28a5ad8947f7fa4abffab6863667b1056a3d0676583ac2d1221f2615ff94f,
  0x473f86b01ba8d8ad6873d32c4b1bc0a0791e7255246b578d03696e803bf8684,
  0xb20d04ff547fae81530f0bc23688799fe5cb17ab140ebb6e8581292ce95fb9a,
  0x11cda834e8d5684553daa445821f5329f5277bd0103b21f500798e3d996c70b0,
  0x187a8019dc62d5a2928457cee0d61eb9ebf246256f355833189b09e86442e5c6,
  0x22bee2a0588e3adc45f95563d247448e32d897a5a1689ffbbbf7ede06a272fb,
  0x8d8c60ef916510b030948df9bdb3fd8d9f853cfb910c03dd3e0fa88d178e811,
  0xf859df3eca3be6841b2fc68fa920b68d0c31e25180af67bec0276339c4f5d27,
  0x163275d8e0312bc5805caff25948d6f8c78de87a77052cba0423f1de6725d23d,
  0x1cdf4dbdd3be9922bf06637bb7ffa288be58b2cfd5ff62f81c456d8931fc4753,
  0x690bbcdfce4a72df0e1a103144df817b593f624c0e094c4bf69e27ed45bd488,
  0xd3d93b2f072148b2f8b548c7304c3a7ac5ec07a1fdacb02d78b5e299f32499e,
  0x13ea6b97e3ff81e86e350815d1bb8f37a3298acf7ed50140efacd9d46a08beb4,
  0x1a97437cd78cef45acdebb9f30725ac799f45524ddcf377f07ce557f34df33ca,
  0x448b18d00b2fd50deb9f9268cc0b056912f9879c8b0694baaf2ca74d73ec0ff,
  0xaf58971f4406aae1d63acafeb777be687fa62cf27aa9f89c314461fa2153615,
  0x11a26156e7cdd80b5c0d60394a2e47767ec52d2486a4d5c7db35c1ca6cebab2b,
  0x184f393bdb5b45689ab713c2a8e51306758ff779e59f0c05f3573d7537c22041,
  0x200a74c04815373cc92514a053368956ccb3aced0803dd2967bb26ada21ad76,
  0x1aedd138d99c0fb99c7943b7a054722e86b8f27bf0fbcfd95255ee658de0bed4,
  0x49f3f4902c21dc4ce54813efca2c7bd7df435d0dbdd01a5f57a635b30404c09,
  0xb4c172df64f8b220cfe34c85b59934d74bf00263ad737e40d9bdf05fb16c11f,
  0x11f8ef12e9dcf87f4ba7e851ba105edd6b89ca7b99d16e2225bd5ab0c5ed3635,
  0x18a5c6f7dd6a65dc8a519bdb18c72a6d625494d0f8cba4603dded65b90c3ab4b,
  0x2573508069073e7bc2cd96275157ffc598fd825e3acd62ce1034b5133233880,
  0x9040cecfa1de144fad68cebd3cc4b8c505aa27b42a70c6af924c6fbfdf9ad96,
  0xfb0e4d1edab4ea2398040753283171c47256cd0a1a142a9114642a6c8d022ac,
  0x165dbcb6e138bbff7829f3fe9139e2ac3df03726009b78e72967be5193a697c2,
  0xf2ac70a5eca0aaa053185ed88383b352b7a7aeb7caab3cc8c3347360624f7,
  0x6bc02abfdec3767e8aee50f4c3f03cb2bf644d04a76e0f1e4adaef200dc9a0d,
  0xd68da90f179a4c527589898aaf5cf5b22c10f25a971172ffccf2a9ccbb30f23,
  0x1415b275e507122266024c2209ac9aeb198bd97b086b4d6e14f0a64796898439,
  0x1ac28a5ad8947f7fa4abffab6863667b1056a3d0676583ac2d1221f2615ff94f,
  0x473f86b01ba8d8ad6873d32c4b1bc0a0791e7255246b578d03696e803bf8684,
  0xb20d04ff547fae81530f0bc23688799fe5cb17ab140ebb6e8581292ce95fb9a,
  0x11cda834e8d5684553daa445821f5329f5277bd0103b21f500798e3d996c70b0,
  0x187a8019dc62d5a2928457cee0d61eb9ebf246256f355833189b09e86442e5c6,
  0x22bee2a0588e3adc45f95563d247448e32d897a5a1689ffbbbf7ede06a272fb,
  0x8d8c60ef916510b030948df9bdb3fd8d9f853cfb910c03dd3e0fa88d178e811,
  0xf859df3eca3be6841b2fc68fa920b68d0c31e25180af67bec0276339c4f5d27,
  0x163275d8e0312bc5805caff25948d6f8c78de87a77052cba0423f1de6725d23d,
  0x1cdf4dbdd3be9922bf06637bb7ffa288be58b2cfd5ff62f81c456d8931fc4753,
  0x690bbcdfce4a72df0e1a103144df817b593f624c0e094c4bf69e27ed45bd488,
  0xd3d93b2f072148b2f8b548c7304c3a7ac5ec07a1fdacb02d78b5e299f32499e,
  0x13ea6b97e3ff81e86e350815d1bb8f37a3298acf7ed50140efacd9d46a08beb4,
  0x1a97437cd78cef45acdebb9f30725ac799f45524ddcf377f07ce557f34df33ca,
  0x448b18d00b2fd50deb9f9268cc0b056912f9879c8b0694baaf2ca74d73ec0ff,
  0xaf58971f4406aae1d63acafeb777be687fa62cf27aa9f89c314461fa2153615,
  0x11a26156e7cdd80b5c0d60394a2e47767ec52d2486a4d5c7db35c1ca6cebab2b,
  0x184f393bdb5b45689ab713c2a8e51306758ff779e59f0c05f3573d7537c22041,
  0x200a74c04815373cc92514a053368956ccb3aced0803dd2967bb26ada21ad76,
  0x1aedd138d99c0fb99c7943b7a054722e86b8f27bf0fbcfd95255ee658de0bed4,
  0x49f3f4902c21dc4ce54813efca2c7bd7df435d0dbdd01a5f57a635b30404c09,
  0xb4c172df64f8b220cfe34c85b59934d74bf00263ad737e40d9bdf05fb16c11f,
  0x11f8ef12e9dcf87f4ba7e851ba105edd6b89ca7b99d16e2225bd5ab0c5ed3635,
  0x18a5c6f7dd6a65dc8a519bdb18c72a6d625494d0f8cba4603dded65b90c3ab4b,
  0x2573508069073e7bc2cd96275157ffc598fd825e3acd62ce1034b5133233880,
  0x9040cecfa1de144fad68cebd3cc4b8c505aa27b42a70c6af924c6fbfdf9ad96,
  0xfb0e4d1edab4ea2398040753283171c47256cd0a1a142a9114642a6c8d022ac,
  0x165dbcb6e138bbff7829f3fe9139e2ac3df03726009b78e72967be5193a697c2,
  0xf2ac70a5eca0aaa053185ed88383b352b7a7aeb7caab3cc8c3347360624f7,
  0x6bc02abfdec3767e8aee50f4c3f03cb2bf644d04a76e0f1e4adaef200dc9a0d,
  0xd68da90f179a4c527589898aaf5cf5b22c10f25a971172ffccf2a9ccbb30f23,
  0x1415b275e507122266024c2209ac9aeb198bd97b086b4d6e14f0a64796898439,
  0x1ac28a5ad8947f7fa4abffab6863667b1056a3d0676583ac2d1221f2615ff94f,
  0x473f86b01ba8d8ad6873d32c4b1bc0a0791e7255246b578d03696e803bf8684,
  0xb20d04ff547fae81530f0bc23688799fe5cb17ab140ebb6e8581292ce95fb9a,
  0x11cda834e8d5684553daa445821f5329f5277bd0103b21f500798e3d996c70b0,
  0x187a8019dc62d5a2928457cee0d61eb9ebf246256f355833189b09e86442e5c6,
  0x22bee2a0588e3adc45f95563d247448e32d897a5a1689ffbbbf7ede06a272fb,
  0x8d8c60ef916510b030948df9bdb3fd8d9f853cfb910c03dd3e0fa88d178e811,
  0xf859df3eca3be6841b2fc68fa920b68d0c31e25180af67bec0276339c4f5d27,
  0x163275d8e0312bc5805caff25948d6f8c78de87a77052cba0423f1de6725d23d,
  0x1cdf4dbdd3be9922bf06637bb7ffa288be58b2cfd5ff62f81c456d8931fc4753,
  0x690bbcdfce4a72df0e1a103144df817b593f624c0e094c4bf69e27ed45bd488,
  0xd3d93b2f072148b2f8b548c7304c3a7ac5ec07a1fdacb02d78b5e299f32499e,
  0x13ea6b97e3ff81e86e350815d1bb8f37a3298acf7ed50140efacd9d46a08beb4,
  0x1a97437cd78cef45acdebb9f30725ac799f45524ddcf377f07ce557f34df33ca,
  0x448b18d00b2fd50deb9f9268cc0b056912f9879c8b0694baaf2ca74d73ec0ff,
  0xaf58971f4406aae1d63acafeb777be687fa62cf27aa9f89c314461fa2153615,
  0x11a26156e7cdd80b5c0d60394a2e47767ec52d2486a4d5c7db35c1ca6cebab2b,
  0x184f393bdb5b45689ab713c2a8e51306758ff779e59f0c05f3573d7537c22041,
  0x200a74c04815373cc92514a053368956ccb3aced0803dd2967bb26ada21ad76,
  0x1aedd138d99c0fb99c7943b7a054722e86b8f27bf0fbcfd95255ee658de0bed4,
  0x49f3f4902c21dc4ce54813efca2c7bd7df435d0dbdd01a5f57a635b30404c09,
  0xb4c172df64f8b220cfe34c85b59934d74bf00263ad737e40d9bdf05fb16c11f,
  0x11f8ef12e9dcf87f4ba7e851ba105edd6b89ca7b99d16e2225bd5ab0c5ed3635,
  0x18a5c6f7dd6a65dc8a519bdb18c72a6d625494d0f8cba4603dded65b90c3ab4b,
  0x2573508069073e7bc2cd96275157ffc598fd825e3acd62ce1034b5133233880,
  0x9040cecfa1de144fad68cebd3cc4b8c505aa27b42a70c6af924c6fbfdf9ad96,
  0xfb0e4d1edab4ea2398040753283171c47256cd0a1a142a9114642a6c8d022ac,
  0x165dbcb6e138bbff7829f3fe9139e2ac3df03726009b78e72967be5193a697c2,
  0xf2ac70a5eca0aaa053185ed88383b352b7a7aeb7caab3cc8c3347360624f7,
  0x6bc02abfdec3767e8aee50f4c3f03cb2bf644d04a76e0f1e4adaef200dc9a0d,
  0xd68da90f179a4c527589898aaf5cf5b22c10f25a971172ffccf2a9ccbb30f23,
  0x1415b275e507122266024c2209ac9aeb198bd97b086b4d6e14f0a64796898439,
  0x1ac28a5ad8947f7fa4abffab6863667b1056a3d0676583ac2d1221f2615ff94f,
  0x473f86b01ba8d8ad6873d32c4b1bc0a0791e7255246b578d03696e803bf8684,
  0xb20d04ff547fae81530f0bc23688799fe5cb17ab140ebb6e8581292ce95fb9a,
  0x11cda834e8d5684553daa445821f5329f5277bd0103b21f500798e3d996c70b0,
  0x187a8019dc62d5a2928457cee0d61eb9ebf246256f355833189b09e86442e5c6,
  0x22bee2a0588e3adc45f95563d247448e32d897a5a1689ffbbbf7ede06a272fb,
  0x8d8c60ef916510b030948df9bdb3fd8d9f853cfb910c03dd3e0fa88d178e811,
  0xf859df3eca3be6841b2fc68fa920b68d0c31e25180af67bec0276339c4f5d27,
  0x163275d8e0312bc5805caff25948d6f8c78de87a77052cba0423f1de6725d23d,
  0x1cdf4dbdd3be9922bf06637bb7ffa288be58b2cfd5ff62f81c456d8931fc4753,
  0x690bbcdfce4a72df0e1a103144df817b593f624c0e094c4bf69e27ed45bd488,
  0xd3d93b2f072148b2f8b548c7304c3a7ac5ec07a1fdacb02d78b5e299f32499e,
  0x13ea6b97e3ff81e86e350815d1bb8f37a3298acf7ed50140efacd9d46a08beb4,
  0x1a97437cd78cef45acdebb9f30725ac799f45524ddcf377f07ce557f34df33ca,
  0x448b18d00b2fd50deb9f9268cc0b056912f9879c8b0694baaf2ca74d73ec0ff,
  0xaf58971f4406aae1d63acafeb777be687fa62cf27aa9f89c314461fa2153615,
  0x11a26156e7cdd80b5c0d60394a2e47767ec52d2486a4d5c7db35c1ca6cebab2b,
  0x184f393bdb5b45689ab713c2a8e51306758ff779e59f0c05f3573d7537c22041,
  0x200a74c04815373cc92514a053368956ccb3aced0803dd2967bb26ada21ad76]

def multiE : Lit := ⟨0x3ff9347a062e19bc3e051912b2289e82e6bfef4e4e28ecfc86a0c978c64602d8, 0x366577e3f0c5cc85846b286b882cbdca0b8a55d17f89dabb8d0711f973755424, by decide +kernel⟩

noncomputable def multiProver : List (ProverQuery (ZMod r) BElem) :=
  [⟨lin polyA crsE.gens, polyA, 0, 1⟩, ⟨lin polyB crsE.gens, polyB, 0, 32⟩]

/-- Scalars compared as numbers. -/
theorem scal_of_val {l : List (ZMod r)} {m : List ℕ} (h : l.map ZMod.val = m) : l = scal m := by rw [← h, scal_val]

theorem ok_of_val {x : Res (List (ZMod r))} {m : List ℕ} (h : (match x with
    | .ok b => decide (b.map ZMod.val = m)
    | .error _ => false) = true) : x = .ok (scal m) := by
  cases x with
  | error e => exact absurd h Bool.false_ne_true
  | ok b => rw [scal_of_val (of_decide_eq_true h)]

theorem absorb_two {t : Transcript} {c₁ c₂ : BElem} {C₁ C₂ : Tri} (h₁ : C₁.R c₁) (h₂ : C₂.R c₂) (f₁ f₂ : List (ZMod r)) (p₁ p₂ : ℕ) (y₁ y₂ : ZMod r)
    {x : ℕ} (h : leNat (Sha256.hash (t ++ lbl "multiproof" ++ lbl "C" ++ C₁.bytes ++ lbl "z" ++ leBytes 32 (p₁ % r) ++ lbl "y" ++ leBytes 32 y₁.val ++
      lbl "C" ++ C₂.bytes ++ lbl "z" ++ leBytes 32 (p₂ % r) ++ lbl "y" ++ leBytes 32 y₂.val ++ lbl "r")) % r = x) :
    absorbQueries shaOracle t (([⟨c₁, f₁, p₁, y₁⟩, ⟨c₂, f₂, p₂, y₂⟩] : List (ProverQuery (ZMod r) BElem)).map ProverQuery.toVerifier) =
      ((x : ZMod r), after (lbl "r") x) := by
  have e1 : shaOracle.K.encE c₁ = C₁.bytes := (bytes_R h₁).symm
  have e2 : shaOracle.K.encE c₂ = C₂.bytes := (bytes_R h₂).symm
  have e3 : ∀ n : ℕ, shaOracle.K.encS (n : ZMod r) = leBytes 32 (n % r) := fun n => by
    change leBytes 32 (ZMod.val (n : ZMod r)) = _
    rw [ZMod.val_natCast]
  have e4 : ∀ y : ZMod r, shaOracle.K.encS y = leBytes 32 y.val := fun _ => rfl
  unfold absorbQueries
  apply challenge_after
  simp only [List.map_cons, List.map_nil, List.foldl_cons, List.foldl_nil, ProverQuery.toVerifier, appendScalar, appendPoint, appendMessage, domainSep]
  rw [e1, e2, e3, e3, e4, e4]
  exact h

theorem multi_absorb_key : leNat (Sha256.hash (newTranscript (lbl "test") ++ lbl "multiproof" ++ lbl "C" ++ commA.tri.bytes ++ lbl "z" ++ leBytes 32 (0 % r) ++
    lbl "y" ++ leBytes 32 (1 : ZMod r).val ++ lbl "C" ++ commB.tri.bytes ++ lbl "z" ++ leBytes 32 (0 % r) ++ lbl "y" ++ leBytes 32 (32 : ZMod r).val ++
    lbl "r")) % r = 0x136170406939887bdb29ec4d1d28a36737965252c0ed0f5579c1201d767039 := by
  decide +kernel

theorem multi_absorb : absorbQueries shaOracle (newTranscript (lbl "test")) (multiProver.map ProverQuery.toVerifier) =
    (((0x136170406939887bdb29ec4d1d28a36737965252c0ed0f5579c1201d767039 : ℕ) : ZMod r), after (lbl "r") 0x136170406939887bdb29ec4d1d28a36737965252c0ed0f5579c1201d767039) :=
  absorb_two commA_R commB_R polyA polyB 0 0 1 32 multi_absorb_key

theorem multi_agg : aggregate 256 (group multiProver (powersOf ((0x136170406939887bdb29ec4d1d28a36737965252c0ed0f5579c1201d767039 : ℕ) : ZMod r) 2) 0) = scal multiPolyA := by
  have e := aggregate_eq (R := fun (_ : Unit) (_ : BElem) => True) 256 (qs := [⟨(), polyA, 0, 1⟩, ⟨(), polyB, 0, 32⟩]) (qs' := multiProver)
    (.cons ⟨trivial, rfl, rfl, rfl⟩ (.cons ⟨trivial, rfl, rfl, rfl⟩ .nil)) (powersOf ((0x136170406939887bdb29ec4d1d28a36737965252c0ed0f5579c1201d767039 : ℕ) : ZMod r) 2) 0
  rw [← e]
  exact scal_of_val (by decide +kernel)

theorem multi_divide : divide tables (scal multiPolyA) 0 = .ok (scal multiPolyQ) := ok_of_val (by decide +kernel)

theorem multi_D : lin (scal multiPolyQ) crsE.gens = multiD.elem :=
  elem_of_bytes (msm_R _ crs_R.2.1) (by decide +kernel)

theorem multi_first : (scal multiPolyA).map ((((0x504b17d1c145882f2c76eb39335fc5ff69a9f90520ddde1eefe196c354b25d : ℕ) : ZMod r) - ((0 : ℕ) : ZMod r))⁻¹ * ·) = scal multiPoly1 := scal_of_val (by decide +kernel)

theorem multi_E : lin (scal multiPoly1) crsE.gens = multiE.elem :=
  elem_of_bytes (msm_R _ crs_R.2.1) (by decide +kernel)

theorem multi_coeffs : lagrangeCoeffs tables 256 ((0x504b17d1c145882f2c76eb39335fc5ff69a9f90520ddde1eefe196c354b25d : ℕ) : ZMod r) = .ok (scal multiB0) := ok_of_val (by decide +kernel)

theorem multi_sub : subPoly (scal multiPoly1) (scal multiPolyQ) = scal multiA0 := scal_of_val (by decide +kernel)

/-- The prover for one point, from its parts. -/
theorem open_parts {t : Transcript} {qs : List (ProverQuery (ZMod r) BElem)} {p : ℕ} {W : Weights (ZMod r)} {rv : ZMod r} {t₁ t₂ t₃ : Transcript}
    {fa fq f1 b fs : List ℕ} {D E : BElem} {tt : ZMod r} {pf : IpaProof (ZMod r) BElem}
    (h₁ : absorbQueries shaOracle t (qs.map ProverQuery.toVerifier) = (rv, t₁))
    (h₂ : aggregate 256 (group qs (powersOf rv qs.length) p) = scal fa) (h₃ : divide W (scal fa) p = .ok (scal fq))
    (hq : fq.length = 256) (h₄ : lin (scal fq) crsE.gens = D)
    (h₅ : challenge shaOracle (appendPoint shaOracle t₁ (lbl "D") D) (lbl "t") = (tt, t₂))
    (h₆ : (scal fa).map ((tt - (p : ZMod r))⁻¹ * ·) = scal f1) (h1 : f1.length = 256) (h₇ : lin (scal f1) crsE.gens = E)
    (h₈ : lagrangeCoeffs W 256 tt = .ok (scal b)) (h₉ : subPoly (scal f1) (scal fq) = scal fs)
    (h₀ : create shaOracle (appendPoint shaOracle t₂ (lbl "E") E) crsE (scal fs) (E - D) (scal b) tt = .ok (pf, t₃)) :
    openMulti shaOracle crsE W t qs [p] = .ok (⟨pf, D⟩, t₃) := by
  have hn : crsE.n = 256 := rfl
  have hl : crsE.gens.length = 256 := by simp [crsE, crsOf]
  have hm : ∀ l : List ℕ, l.length = 256 → Ipa.msm (scal l) crsE.gens = .ok (lin (scal l) crsE.gens) := fun l h => by
    rw [Ipa.msm, if_pos (by rw [hl]; simp [scal, h])]
  have h0 : ∀ l : List ℕ, addPoly [] (scal l) = scal l := fun l => by simp [addPoly]
  unfold openMulti
  rw [h₁]
  simp only [hn, List.map_cons, List.map_nil, h₂, List.mapM_cons, List.mapM_nil, h₃, bind, Except.bind, pure, Except.pure,
    List.foldl_cons, List.foldl_nil, h0, hm fq hq, h₄, h₅, h₆, hm f1 h1, h₇, h₈, h₉, h₀]

theorem multi_t : challenge shaOracle (appendPoint shaOracle (after (lbl "r") 0x136170406939887bdb29ec4d1d28a36737965252c0ed0f5579c1201d767039) (lbl "D") multiD.elem) (lbl "t") =
    (((0x504b17d1c145882f2c76eb39335fc5ff69a9f90520ddde1eefe196c354b25d : ℕ) : ZMod r), after (lbl "t") 0x504b17d1c145882f2c76eb39335fc5ff69a9f90520ddde1eefe196c354b25d) := by
  have enc : ∀ p : Lit, shaOracle.K.encE p.elem = p.tri.bytes := fun p => (bytes_R p.R).symm
  apply challenge_after
  unfold appendPoint appendMessage
  rw [enc]
  decide +kernel

theorem multi_w : leNat (Sha256.hash (after (lbl "t") 0x504b17d1c145882f2c76eb39335fc5ff69a9f90520ddde1eefe196c354b25d ++ lbl "E" ++ multiE.tri.bytes ++ lbl "ipa" ++ lbl "C" ++
    (multiE.tri.add multiD.tri.neg).bytes ++ lbl "input point" ++ leBytes 32 (0x504b17d1c145882f2c76eb39335fc5ff69a9f90520ddde1eefe196c354b25d % r) ++ lbl "output point" ++
    leBytes 32 (innerN multiA0 multiB0 % r) ++ lbl "w")) % r = 0xf672b76d0a5ad5ddba55d9f3ee3aeba018e9dbfe83a3520982f101030a8ddd3 := by
  decide +kernel

theorem multi_create : create shaOracle (appendPoint shaOracle (after (lbl "t") 0x504b17d1c145882f2c76eb39335fc5ff69a9f90520ddde1eefe196c354b25d) (lbl "E") multiE.elem) crsE (scal multiA0)
    (multiE.elem - multiD.elem) (scal multiB0) ((0x504b17d1c145882f2c76eb39335fc5ff69a9f90520ddde1eefe196c354b25d : ℕ) : ZMod r) = .ok (litProof multiL multiR multia, after (lbl "x") 0xd2dfbfd6691b7152b4ae4866f40a080b2243039e9aa4a38066ceced77634052) := by
  have enc : shaOracle.K.encE multiE.elem = multiE.tri.bytes := (bytes_R multiE.R).symm
  have hED : (multiE.tri.add multiD.tri.neg).R (multiE.elem - multiD.elem) := by
    rw [sub_eq_add_neg]
    exact multiE.R.add multiD.R.neg
  refine create_go (y := innerN multiA0 multiB0) (by decide +kernel) (by decide +kernel) hED rfl ?_ (by decide +kernel) multi_go
  unfold appendPoint appendMessage
  rw [enc]
  exact multi_w

theorem multi_open : openMulti shaOracle crsE tables (newTranscript (lbl "test")) multiProver [0] =
    .ok (⟨litProof multiL multiR multia, multiD.elem⟩, after (lbl "x") 0xd2dfbfd6691b7152b4ae4866f40a080b2243039e9aa4a38066ceced77634052) :=
  open_parts multi_absorb multi_agg multi_divide (by decide +kernel) multi_D multi_t multi_first (by decide +kernel) multi_E multi_coeffs
    multi_sub multi_create

theorem multi_bytes : multiToBytes codec ⟨litProof multiL multiR multia, multiD.elem⟩ = multiBytes := by
  unfold multiToBytes
  rw [ipaToBytes_lit]
  have enc : codec.encE multiD.elem = multiD.tri.bytes := (bytes_R multiD.R).symm
  simp only [enc]
  decide +kernel

theorem multi_state : hexS (challenge shaOracle (after (lbl "x") 0xd2dfbfd6691b7152b4ae4866f40a080b2243039e9aa4a38066ceced77634052) (lbl "state")).1 =
    0xeee8a80357ff74b766eba39db90797d022e8d6dee426ded71234241be504d519 := by
  rw [hexS, challenge_val]
  decide +kernel

/-- The prover of the test writes the expected bytes (`multiproof.rs:533`) and its final challenge is the one at
`multiproof.rs:510-513`. -/
theorem multi_prover : ∃ W p t, Weights.new (ZMod r) 256 = .ok W ∧
    openMulti shaOracle crsE W (newTranscript (lbl "test")) multiProver [0] = .ok (p, t) ∧
    multiToBytes codec p = multiBytes ∧
    hexS (challenge shaOracle t (lbl "state")).1 = 0xeee8a80357ff74b766eba39db90797d022e8d6dee426ded71234241be504d519 :=
  ⟨tables, _, _, weights_eq, multi_open, multi_bytes, multi_state⟩

end Verif.Vectors
